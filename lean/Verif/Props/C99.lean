import Verif.Props.C09

/-!
# C99 Remeshing keeps the snow cover and the glacier apart
-/

set_option autoImplicit false
set_option linter.unusedSectionVars false

namespace Cosipy

/-! ### Spec -/
section
variable {K : Type} [Field K] [LinearOrder K] [IsStrictOrderedRing K]

/-- A layer of positive height that holds ice and no liquid water. -/
def DryLayer (n : Node K) : Prop := 0 < n.height ∧ n.lwc = 0 ∧ 0 < n.iceFraction ∧ n.iceFraction ≤ 1

/-- A dry snow cover (layers below the density threshold) on top of dry glacier ice (layers at or above it). -/
structure Parted (c : Consts K) (ns snow ice : List (Node K)) : Prop where
  eq : ns = snow ++ ice
  snow : ∀ n ∈ snow, DryLayer n ∧ IsSnow c n
  ice : ∀ n ∈ ice, DryLayer n ∧ IsIce c n

/-- The column before (`ns`) and after (`ns'`): snow cover and glacier each keep their height, ice, water and heat. -/
def KeepsParts (c : Consts K) (ns ns' : List (Node K)) : Prop :=
  ∀ snow ice, Parted c ns snow ice →
    ∃ snow' ice', Parted c ns' snow' ice' ∧ SameTotals snow' snow ∧ SameTotals ice' ice

end

/-! ### Lemmas -/

theorem append_split_left {β : Type} {P : β → Prop} {A B pre run post : List β} (h : A ++ B = pre ++ run ++ post)
    (hr : run ≠ []) (hB : ∀ x ∈ B, ¬ P x) (hrun : ∀ x ∈ run, P x) :
    ∃ s, A = pre ++ run ++ s ∧ post = s ++ B := by
  rcases List.append_eq_append_iff.1 h with ⟨a, h1, h2⟩ | ⟨s, h1, h2⟩
  · rcases List.eq_nil_or_concat a with rfl | ⟨a, z, rfl⟩
    · exact ⟨[], by simpa using h1.symm, by simpa using h2.symm⟩
    · obtain ⟨r, y, hy⟩ := (List.eq_nil_or_concat run).resolve_left hr
      exfalso
      have h3 : y = z := by
        rw [hy] at h1
        have := congrArg List.getLast? h1
        simpa using this
      exact hB z (by rw [h2]; simp) (h3 ▸ hrun y (by rw [hy]; simp))
  · exact ⟨s, h1, h2⟩

theorem append_split_right {β : Type} {P : β → Prop} {A B pre run post : List β} (h : A ++ B = pre ++ run ++ post)
    (hr : run ≠ []) (hA : ∀ x ∈ A, P x) (hrun : ∀ x ∈ run, ¬ P x) :
    ∃ s, pre = A ++ s ∧ B = s ++ run ++ post := by
  rw [List.append_assoc] at h
  rcases List.append_eq_append_iff.1 h with ⟨a, h1, h2⟩ | ⟨s, h1, h2⟩
  · exact ⟨a, h1, by simpa using h2⟩
  · cases s with
    | nil => exact ⟨[], by simpa using h1.symm, by simpa using h2.symm⟩
    | cons z s =>
      obtain ⟨y, r, rfl⟩ := List.exists_cons_of_ne_nil hr
      simp only [List.cons_append, List.cons.injEq] at h2
      exact absurd (hA z (by rw [h1]; simp)) (h2.1 ▸ hrun y (by simp))

section
variable {K : Type} [Field K] [LinearOrder K] [IsStrictOrderedRing K]

theorem DryLayer.sound {n : Node K} (h : DryLayer n) : Sound n :=
  ⟨h.1, by rw [h.2.1, add_zero]; exact h.2.2.2⟩

theorem DryLayer.merged {a b : Node K} (ha : DryLayer a) (hb : DryLayer b) : DryLayer (Grid.merged a b) := by
  obtain ⟨u, v, hu, hv, huv, _, hi, hw⟩ := merged_weights ha.1 hb.1
  have hb1 := between_mono (lo := min a.iceFraction b.iceFraction) (hi := 1)
    (between_convex (a := a.iceFraction) (b := b.iceFraction) hu hv huv)
    ⟨min_le_left _ _, ha.2.2.2⟩ ⟨min_le_right _ _, hb.2.2.2⟩
  refine ⟨add_pos ha.1 hb.1, ?_, ?_, ?_⟩
  · rw [hw, ha.2.1, hb.2.1]; simp
  · rw [hi]; exact (lt_min ha.2.2.1 hb.2.2.1).trans_le hb1.1
  · rw [hi]; exact hb1.2

/-- Cutting a dry layer leaves two dry layers of the same density. -/
theorem DryLayer.split (c : Consts K) {h : K} {m x y : Node K} (hh : 0 < h) (hm : DryLayer m) (hs : SplitsTo h m x y) :
    (DryLayer x ∧ x.density c = m.density c) ∧ DryLayer y ∧ y.density c = m.density c := by
  obtain ⟨θ, hθ, _, _, hlt, rfl, rfl⟩ := hs.ex
  have hθ0 := irr_nonneg hm.2.2.1 hθ
  refine ⟨⟨⟨hh, by simp [hm.2.1, not_lt.2 hθ0], hm.2.2.1, hm.2.2.2⟩, ?_⟩,
    ⟨sub_pos.2 hlt, by simp [hm.2.1, not_lt.2 hθ0], hm.2.2.1, hm.2.2.2⟩, ?_⟩ <;>
  · unfold Node.density Node.airPorosity
    simp [hm.2.1, not_lt.2 hθ0]

/-- Two neighbouring layers on the same side merge into a layer on that side. -/
theorem snow_merged {c : Consts K} (hair : 0 ≤ c.airDensity) {a b : Node K} (ha : DryLayer a ∧ IsSnow c a)
    (hb : DryLayer b ∧ IsSnow c b) : DryLayer (Grid.merged a b) ∧ IsSnow c (Grid.merged a b) := by
  obtain ⟨x, y, hx, hy, hxy, hle, _⟩ := merged_density_le c hair ha.1.1 hb.1.1
  exact ⟨ha.1.merged hb.1, lt_of_le_of_lt (hle.trans (between_convex hx hy hxy).2) (max_lt ha.2 hb.2)⟩

theorem ice_merged {c : Consts K} (hair : 0 ≤ c.airDensity) {a b : Node K} (ha : DryLayer a ∧ IsIce c a)
    (hb : DryLayer b ∧ IsIce c b) : DryLayer (Grid.merged a b) ∧ IsIce c (Grid.merged a b) := by
  obtain ⟨x, y, hx, hy, hxy, _, heq⟩ := merged_density_le c hair ha.1.1 hb.1.1
  refine ⟨ha.1.merged hb.1, ?_⟩
  unfold IsIce
  rw [heq ha.1.sound.2 hb.1.sound.2]
  exact (le_min ha.2 hb.2).trans (between_convex hx hy hxy).1

theorem Parted.nSnow {c : Consts K} {ns snow ice : List (Node K)} (h : Parted c ns snow ice) :
    Grid.nSnow c ns = snow.length := by
  unfold Grid.nSnow
  rw [h.eq, List.filter_append, List.length_append, List.filter_eq_self.2, List.filter_eq_nil_iff.2]
  · simp
  · intro n hn; simpa [IsIce] using (h.ice n hn).2
  · intro n hn; simpa [IsSnow] using (h.snow n hn).2

theorem Parted.dry {c : Consts K} {ns snow ice : List (Node K)} (h : Parted c ns snow ice) {n : Node K}
    (hn : n ∈ ns) : DryLayer n := by
  rw [h.eq] at hn
  rcases List.mem_append.1 hn with hn | hn
  · exact (h.snow n hn).1
  · exact (h.ice n hn).1

theorem Parted.replaceSnow {c : Consts K} {ns snow ice : List (Node K)} (h : Parted c ns snow ice)
    {pre run post new : List (Node K)} (hd : ns = pre ++ run ++ post) (hr : run ≠ [])
    (hs : ∀ n ∈ run, IsSnow c n) (hn : ∀ n ∈ new, DryLayer n ∧ IsSnow c n) (ht : SameTotals new run) :
    ∃ snow', Parted c (pre ++ new ++ post) snow' ice ∧ SameTotals snow' snow ∧ (new ≠ [] → snow' ≠ []) := by
  obtain ⟨s, h1, h2⟩ := append_split_left (P := IsSnow c) (h.eq.symm.trans hd) hr
    (fun x hx => not_lt.2 (h.ice x hx).2) hs
  refine ⟨pre ++ new ++ s, ⟨by rw [h2]; simp, ?_, h.ice⟩, ?_, fun hne => by simp [hne]⟩
  · intro n hm
    simp only [List.mem_append] at hm
    rcases hm with (hm | hm) | hm
    · exact h.snow n (by rw [h1]; simp [hm])
    · exact hn n hm
    · exact h.snow n (by rw [h1]; simp [hm])
  · rw [h1]
    exact ((SameTotals.refl pre).append ht).append (SameTotals.refl s)

theorem Parted.replaceIce {c : Consts K} {ns snow ice : List (Node K)} (h : Parted c ns snow ice)
    {pre run post new : List (Node K)} (hd : ns = pre ++ run ++ post) (hr : run ≠ [])
    (hs : ∀ n ∈ run, IsIce c n) (hn : ∀ n ∈ new, DryLayer n ∧ IsIce c n) (ht : SameTotals new run) :
    ∃ ice', Parted c (pre ++ new ++ post) snow ice' ∧ SameTotals ice' ice := by
  obtain ⟨s, h1, h2⟩ := append_split_right (P := IsSnow c) (h.eq.symm.trans hd) hr
    (fun x hx => (h.snow x hx).2) (fun x hx => not_lt.2 (hs x hx))
  refine ⟨s ++ new ++ post, ⟨by rw [h1]; simp, h.snow, ?_⟩, ?_⟩
  · intro n hm
    simp only [List.mem_append] at hm
    rcases hm with (hm | hm) | hm
    · exact h.ice n (by rw [h2]; simp [hm])
    · exact hn n hm
    · exact h.ice n (by rw [h2]; simp [hm])
  · rw [h2]
    exact ((SameTotals.refl s).append ht).append (SameTotals.refl post)

theorem Parted.side {c : Consts K} {ns snow ice : List (Node K)} (h : Parted c ns snow ice)
    {pre post : List (Node K)} {a : Node K} (hd : ns = pre ++ a :: post) :
    (pre.length < snow.length → IsSnow c a) ∧ (snow.length ≤ pre.length → IsIce c a) := by
  have h1 : (snow ++ ice)[pre.length]? = some a := by rw [← h.eq, hd]; simp
  constructor
  · intro hl
    rw [List.getElem?_append_left hl] at h1
    exact (h.snow a (List.mem_of_getElem? h1)).2
  · intro hl
    rw [List.getElem?_append_right hl] at h1
    exact (h.ice a (List.mem_of_getElem? h1)).2

/-- `correct_layer(i, h)` changes only the part layer `i` belongs to. -/
theorem Parted.correctLayer {c : Consts K} (hair : 0 ≤ c.airDensity) {g g' : Grid K} {snow ice : List (Node K)}
    (hs : Parted c g.nodes snow ice) (hw : g.WF) {fuel : Nat} {i : Int} {h : K} (hi : 0 ≤ i) (hh : 0 < h)
    (he : g.correctLayer fuel c i h = .ok g') :
    (i < snow.length → ∃ snow', Parted c g'.nodes snow' ice ∧ SameTotals snow' snow ∧ snow' ≠ []) ∧
    (snow.length ≤ i → ∃ ice', Parted c g'.nodes snow ice' ∧ SameTotals ice' ice) := by
  obtain ⟨pre, run, post, m, new, hd, hl, hm, hg', _, _, hnew⟩ := correctLayer_ok hi hw he
  have hrd : ∀ n ∈ run, DryLayer n := fun n hn => hs.dry (by rw [hd]; simp [hn])
  have hmd : DryLayer m := hm.all DryLayer (fun _ _ => DryLayer.merged) hrd
  have htot : SameTotals new run := by
    rcases hnew with ⟨_, rfl⟩ | ⟨x, y, hs, rfl⟩
    · exact hm.totals
    · exact hs.totals.trans hm.totals
  have hnn : new ≠ [] := by rcases hnew with ⟨_, rfl⟩ | ⟨x, y, _, rfl⟩ <;> simp
  obtain ⟨a, rest, ha⟩ := List.exists_cons_of_ne_nil hm.ne_nil
  have hside := hs.side (pre := pre) (a := a) (post := rest ++ post) (by rw [hd, ha]; simp)
  have hgn : g'.nodes = pre ++ new ++ post := by rw [hg']
  rw [hgn]
  constructor
  · intro hlt
    have hasnow := hside.1 (by omega)
    rcases hm.side hair (fun n hn => (hrd n hn).sound) with ⟨h1, h2⟩ | h1
    · obtain ⟨snow', k1, k2, k3⟩ := hs.replaceSnow (new := new) hd hm.ne_nil h1 (by
        rcases hnew with ⟨_, rfl⟩ | ⟨x, y, hsx, rfl⟩
        · simpa using ⟨hmd, h2⟩
        · obtain ⟨⟨e1, e2⟩, e3, e4⟩ := hmd.split c hh hsx
          simpa [IsSnow, e2, e4] using ⟨⟨e1, h2⟩, e3, h2⟩) htot
      exact ⟨snow', k1, k2, k3 hnn⟩
    · exact absurd hasnow (not_lt.2 (h1.1 a (by simp [ha])))
  · intro hle
    have haice := hside.2 (by omega)
    rcases hm.side hair (fun n hn => (hrd n hn).sound) with h1 | ⟨h1, h2⟩
    · exact absurd haice (not_le.2 (h1.1 a (by simp [ha])))
    · exact hs.replaceIce (new := new) hd hm.ne_nil h1 (by
        rcases hnew with ⟨_, rfl⟩ | ⟨x, y, hsx, rfl⟩
        · simpa using ⟨hmd, h2⟩
        · obtain ⟨⟨e1, e2⟩, e3, e4⟩ := hmd.split c hh hsx
          simpa [IsIce, e2, e4] using ⟨⟨e1, h2⟩, e3, h2⟩) htot

/-- Merging two layers of one part changes only that part. -/
theorem Parted.mergeNodes {c : Consts K} (hair : 0 ≤ c.airDensity) {g g' : Grid K} {snow ice : List (Node K)}
    (hs : Parted c g.nodes snow ice) {i : Int} (hi : 0 ≤ i) (he : g.mergeNodes i = .ok g') :
    (i + 1 < snow.length → ∃ snow', Parted c g'.nodes snow' ice ∧ SameTotals snow' snow ∧ snow' ≠ []) ∧
    (snow.length ≤ i → ∃ ice', Parted c g'.nodes snow ice' ∧ SameTotals ice' ice) := by
  obtain ⟨pre, a, b, post, hd, hl, hne, rfl⟩ := mergeNodes_decomp hi he
  have hda := hs.dry (n := a) (by rw [hd]; simp)
  have hdb := hs.dry (n := b) (by rw [hd]; simp)
  have sa := hs.side hd
  have sb := hs.side (pre := pre ++ [a]) (a := b) (post := post) (by rw [hd]; simp)
  simp only [List.length_append, List.length_singleton] at sb
  have hd' : g.nodes = pre ++ [a, b] ++ post := by rw [hd]; simp
  have htot : SameTotals [Grid.merged a b] [a, b] := merged_totals hne
  have e : pre ++ Grid.merged a b :: post = pre ++ [Grid.merged a b] ++ post := by simp
  constructor
  · intro hlt
    have ka := sa.1 (by omega)
    have kb := sb.1 (by omega)
    have km := snow_merged hair ⟨hda, ka⟩ ⟨hdb, kb⟩
    obtain ⟨snow', k1, k2, k3⟩ := hs.replaceSnow (new := [Grid.merged a b]) hd' (by simp)
      (by simpa using ⟨ka, kb⟩) (by simpa using km) htot
    exact ⟨snow', by simpa using k1, k2, k3 (by simp)⟩
  · intro hle
    have ka := sa.2 (by omega)
    have kb := sb.2 (by omega)
    have km := ice_merged hair ⟨hda, ka⟩ ⟨hdb, kb⟩
    obtain ⟨ice', k1, k2⟩ := hs.replaceIce (new := [Grid.merged a b]) hd' (by simp)
      (by simpa using ⟨ka, kb⟩) (by simpa using km) htot
    exact ⟨ice', by simpa using k1, k2⟩

theorem sumHeight_append (a b : List (Node K)) : sumHeight (a ++ b) = sumHeight a + sumHeight b := by
  simp [sumHeight, columnSum]

/-- Where the logarithmic profile stands in the snow cover. -/
structure PartInv (c : Consts K) (snow0 ice0 : List (Node K)) (s : Grid.LogState K) : Prop where
  wf : s.g.WF
  idx : 0 ≤ s.idx
  last : 0 < s.last
  rest : 0 ≤ s.hrest
  bound : s.last ≤ c.firstLayerHeight + (c.layerStretching - 1) * (sumHeight snow0 - s.hrest)
  col : ∃ snow, Parted c s.g.nodes snow ice0 ∧ SameTotals snow snow0

theorem PartInv.step {c : Consts K} (hair : 0 ≤ c.airDensity) (hst : 1 ≤ c.layerStretching)
    {snow0 ice0 : List (Node K)} {fuel : Nat} {s s' : Grid.LogState K} (hi : PartInv c snow0 ice0 s)
    (hb : Grid.logSnowPass fuel c s = .ok (some s')) : PartInv c snow0 ice0 s' := by
  have hw' := hi.wf.logSnowPass hb
  obtain ⟨snow, hcol, htot⟩ := hi.col
  have hn : s.idx < (snow.length : Int) := by
    unfold Grid.logSnowPass at hb
    rw [Grid.getNumberSnowLayers_eq hi.wf, ok_bind, hcol.nSnow] at hb
    by_contra hcon
    rw [if_neg hcon] at hb; cases hb
  obtain ⟨e, hcase⟩ := logSnowPass_ok hb
  have hidx := hi.idx
  have hlast := hi.last
  rcases hcase with ⟨hle, hc, hr, hla⟩ | ⟨hlt, hpos, hc, hr, hla⟩ | ⟨hlt, hle0, hc, hr, hla⟩
  · obtain ⟨snow', k1, k2, _⟩ := (hcol.correctLayer hair hi.wf hidx hlast hc).1 hn
    refine ⟨hw', by omega, ?_, by rw [hr]; linarith, ?_, snow', k1, k2.trans htot⟩
    · rw [hla]; exact mul_pos (by linarith) hlast
    · rw [hla, hr]
      have := hi.bound
      linear_combination this
  · obtain ⟨snow', k1, k2, _⟩ := (hcol.mergeNodes hair (by omega) hc).1 (by omega)
    exact ⟨hw', by omega, by rw [hla]; exact hlast, by rw [hr]; exact hi.rest, by rw [hla, hr]; exact hi.bound,
      snow', k1, k2.trans htot⟩
  · exact ⟨hw', by omega, by rw [hla]; exact hlast, by rw [hr]; exact hi.rest, by rw [hla, hr]; exact hi.bound,
      snow, by rw [hc]; exact hcol, htot⟩

/-- As `adaptiveProfile_cases`; the correction of layer 1 happens only with at most one snow layer. -/
theorem adaptiveProfile_parts {g g' : Grid K} {fuel : Nat} {c : Consts K} (h : g.adaptiveProfile fuel c = .ok g') :
    ∃ s n g2 g3 i2 i3, whileM (Grid.adaptSnowPass c) fuel ⟨g, 0, 0⟩ = .ok s ∧
      s.g.getNumberSnowLayers c = .ok n ∧
      ((g2 = s.g ∧ i2 = max 1 (n : Int)) ∨
        (n ≤ 1 ∧ s.g.correctLayer fuel c 1 c.firstLayerHeight = .ok g2 ∧ i2 = 2)) ∧
      whileM (Grid.adaptIcePass c) fuel (g2, i2) = .ok (g3, i3) ∧
      g3.correctLayer fuel c 0 c.firstLayerHeight = .ok g' := by
  unfold Grid.adaptiveProfile at h
  simp only [bind_eq_ok] at h
  obtain ⟨s1, h1, n, hn, ⟨g2, i2⟩, h2, ⟨g3, i3⟩, h3, h⟩ := h
  refine ⟨s1, n, g2, g3, i2, i3, h1, hn, ?_, h3, h⟩
  split_ifs at h2 with c1
  · rw [bind_eq_ok] at h2; obtain ⟨a, _, h2⟩ := h2
    split_ifs at h2
    · rw [bind_eq_ok] at h2; obtain ⟨gg, hgg, h2⟩ := h2
      rw [pure_eq_ok] at h2; cases h2
      rw [c1] at hgg
      exact .inr ⟨by omega, hgg, by omega⟩
    · rw [pure_eq_ok] at h2; cases h2
      exact .inl ⟨rfl, rfl⟩
  · rw [bind_eq_ok] at h2; obtain ⟨a, _, h2⟩ := h2
    rw [pure_eq_ok] at h2; cases h2
    exact .inl ⟨rfl, rfl⟩

/-! ### Theorems -/

/-- **C99** (what is true of the logarithmic profile): if the column is dry snow over dry ice and the glacier is at
least `first_layer_height + (layer_stretching - 1) · snow height` thick (or there is no glacier), `log_profile()`
leaves dry snow over dry ice, and snow cover and glacier each keep their height, ice, water and heat. Full statement:
this for every thickness of the glacier; that is false, see `C99_log_refuted`. Missing: columns with liquid water,
where cutting a layer can turn snow into ice (C08). -/
theorem C99_log_partial {g g' : Grid K} {fuel : Nat} {c : Consts K} (hw : g.WF) (hair : 0 ≤ c.airDensity)
    (hf : 0 < c.firstLayerHeight) (hst : 1 ≤ c.layerStretching) {snow ice : List (Node K)}
    (hcol : Parted c g.nodes snow ice)
    (hthick : ice = [] ∨
      c.firstLayerHeight + (c.layerStretching - 1) * sumHeight snow ≤ sumHeight ice)
    (he : g.logProfile fuel c = .ok g') :
    ∃ snow' ice', Parted c g'.nodes snow' ice' ∧ SameTotals snow' snow ∧ SameTotals ice' ice := by
  unfold Grid.logProfile at he
  rw [Grid.getTotalSnowheight_eq hw, ok_bind] at he
  simp only [bind_eq_ok] at he
  obtain ⟨s1, h1, tot, ht, sn, hsn, n, hn, s2, h2, he⟩ := he
  rw [pure_eq_ok] at he; subst he
  have hss : ∀ {ns snow : List (Node K)}, Parted c ns snow ice →
      pySum ((ns.take (Grid.nSnow c ns)).map Node.height) = sumHeight snow := by
    intro ns snow h
    rw [pySum_eq, h.nSnow, h.eq]; simp [sumHeight, columnSum]
  have hsnow0 : 0 ≤ sumHeight snow := sumHeight_nonneg fun n hn => (hcol.snow n hn).1.1
  have k1 := (whileM_ind h1 (PartInv c snow ice)
    ⟨hw, le_rfl, hf, by rw [hss hcol]; exact hsnow0, by simp only [hss hcol]; simp, snow, hcol, SameTotals.refl _⟩
    (fun s s' hs hb => hs.step hair hst hb)).1
  obtain ⟨snow1, hcol1, htot1⟩ := k1.col
  rw [Grid.getNumberSnowLayers_eq k1.wf, Except.ok.injEq, hcol1.nSnow] at hn
  rw [Grid.getTotalHeight_eq k1.wf, Except.ok.injEq, pySum_eq, hcol1.eq] at ht
  rw [Grid.getTotalSnowheight_eq k1.wf, Except.ok.injEq, hss hcol1] at hsn
  have hrest : tot - sn = sumHeight ice := by
    rw [← ht, ← hsn]; simp [sumHeight, columnSum]
  have hbound : s1.last ≤ c.firstLayerHeight + (c.layerStretching - 1) * sumHeight snow := by
    have := mul_nonneg (sub_nonneg.2 hst) k1.rest
    have := k1.bound
    linarith
  have k2 := (whileM_ind h2 (fun s : Grid.LogState K => s.g.WF ∧ (snow1.length : Int) ≤ s.idx ∧ 0 < s.last ∧
      (s.idx = (snow1.length : Int) → ice = [] ∨ s.last ≤ s.hrest) ∧
      ∃ ice', Parted c s.g.nodes snow1 ice' ∧ SameTotals ice' ice ∧ (ice = [] → ice' = []))
    ⟨k1.wf, by simp [← hn], k1.last, fun _ => hthick.imp_right fun h => by
        show s1.last ≤ tot - sn
        rw [hrest]; linarith, ice, hcol1, SameTotals.refl _, id⟩ (by
      rintro s s' ⟨hws, hi, hlast, hstart, ice', hp, hti, hnil⟩ hb
      have hw' := hws.logIcePass hb
      obtain ⟨hlt, e, hcase⟩ := logIcePass_ok hb
      have hne : ice ≠ [] := by
        intro h
        rw [hws, hp.eq, hnil h] at hlt
        simp at hlt; omega
      have hn0 : (0 : Int) ≤ snow1.length := Int.natCast_nonneg _
      rcases hcase with ⟨hle, hc, hr, hla⟩ | ⟨hlt', hc, hr, hla⟩
      · obtain ⟨ice2, q1, q2⟩ := (hp.correctLayer hair hws (by omega) hlast hc).2 hi
        exact ⟨hw', by omega, by rw [hla]; exact mul_pos (by linarith) hlast, fun h => by omega, ice2, q1,
          q2.trans hti, fun h => absurd h hne⟩
      · have hidx : s.idx ≠ (snow1.length : Int) := fun h =>
          (hstart h).elim hne fun h2 => absurd hlt' (not_lt.2 h2)
        obtain ⟨ice2, q1, q2⟩ := (hp.mergeNodes hair (by omega) hc).2 (by omega)
        exact ⟨hw', by omega, by rw [hla]; exact hlast, fun h => by omega, ice2, q1, q2.trans hti,
          fun h => absurd h hne⟩)).1
  obtain ⟨_, _, _, _, ice', q1, q2, _⟩ := k2
  exact ⟨snow1, ice', q1, htot1, q2⟩

/-- **C99** (the adaptive profile): `adaptive_profile()` leaves dry snow over dry ice as such, for every thickness of
the glacier: the glacier keeps its height, ice, water and heat, and the snow cover loses only the layers of at most
`minimum_snow_layer_height` that the profile deletes. -/
theorem C99_adaptive {g g' : Grid K} {fuel : Nat} {c : Consts K} (hw : g.WF) (hair : 0 ≤ c.airDensity)
    (hf : 0 < c.firstLayerHeight) {snow ice : List (Node K)} (hcol : Parted c g.nodes snow ice)
    (he : g.adaptiveProfile fuel c = .ok g') :
    ∃ snow' ice' deleted, Parted c g'.nodes snow' ice' ∧ SameTotals (snow' ++ deleted) snow ∧ SameTotals ice' ice ∧
      ∀ n ∈ deleted, n.height ≤ c.minimumSnowLayerHeight ∧ IsSnow c n := by
  obtain ⟨s, n, g2, g3, i2, i3, h1, hn, h2, h3, h4⟩ := adaptiveProfile_parts he
  have k1 := (whileM_ind h1
    (fun s : Grid.AdaptState K => s.g.WF ∧ 0 ≤ s.idx ∧ ∃ snow' deleted, Parted c s.g.nodes snow' ice ∧
      SameTotals (snow' ++ deleted) snow ∧ ∀ n ∈ deleted, n.height ≤ c.minimumSnowLayerHeight ∧ IsSnow c n)
    ⟨hw, le_rfl, snow, [], hcol, by simpa using SameTotals.refl _, by simp⟩ (by
      rintro s s' ⟨hws, hi, sn, rm, hp, ht, hrm⟩ hb
      have hw' := hws.adaptSnowPass hb
      have hlt : s.idx < (sn.length : Int) - 1 := by
        unfold Grid.adaptSnowPass at hb
        rw [Grid.getNumberSnowLayers_eq hws, ok_bind, hp.nSnow] at hb
        by_contra hcon
        rw [if_neg hcon] at hb; cases hb
      rcases adaptSnowPass_ok hi hb with ⟨e, _, _, hm⟩ | ⟨e, _, pre, a, post, hd, hl, hle, hg⟩ | ⟨e, _, hg⟩
      · obtain ⟨sn2, q1, q2, _⟩ := (hp.mergeNodes hair hi hm).1 (by omega)
        exact ⟨hw', by omega, sn2, rm, q1, (q2.append (SameTotals.refl rm)).trans ht, hrm⟩
      · have hsa : IsSnow c a := (hp.side hd).1 (by omega)
        have hd' : s.g.nodes = pre ++ [a] ++ post := by rw [hd]; simp
        obtain ⟨t, e1, e2⟩ := append_split_left (P := IsSnow c) (hp.eq.symm.trans hd') (by simp)
          (fun x hx => not_lt.2 (hp.ice x hx).2) (by simpa using hsa)
        refine ⟨hw', by omega, pre ++ t, a :: rm, ⟨by rw [hg, e2]; simp, ?_, hp.ice⟩, ?_, ?_⟩
        · intro n hn
          refine hp.snow n ?_
          rw [e1]
          rcases List.mem_append.1 hn with hn | hn <;> simp [hn]
        · refine SameTotals.trans ?_ ht
          rw [e1]
          constructor <;> simp [sumHeight, sumIce, sumWater, sumHeat, columnSum] <;> ring
        · intro n hn
          rcases List.mem_cons.1 hn with rfl | hn
          · exact ⟨hle, hsa⟩
          · exact hrm n hn
      · exact ⟨hw', by omega, sn, rm, by rw [hg]; exact hp, ht, hrm⟩)).1
  obtain ⟨hw1, _, sn, rm, hp, ht, hrm⟩ := k1
  rw [Grid.getNumberSnowLayers_eq hw1, Except.ok.injEq, hp.nSnow] at hn
  have h2' : g2.WF ∧ (sn.length : Int) ≤ i2 ∧ 0 ≤ i2 ∧ ∃ ice', Parted c g2.nodes sn ice' ∧ SameTotals ice' ice := by
    rcases h2 with ⟨rfl, rfl⟩ | ⟨hle, hc, rfl⟩
    · exact ⟨hw1, by omega, by omega, ice, hp, SameTotals.refl _⟩
    · exact ⟨hw1.correctLayer hc, by omega, by omega, (hp.correctLayer hair hw1 (by omega) hf hc).2 (by omega)⟩
  have k3 := (whileM_ind h3 (fun p : Grid K × Int => p.1.WF ∧ (sn.length : Int) ≤ p.2 ∧ 0 ≤ p.2 ∧
      ∃ ice', Parted c p.1.nodes sn ice' ∧ SameTotals ice' ice) h2' (by
      rintro p p' ⟨hwp, hl, hi, ice', hpp, hti⟩ hb
      refine ⟨hwp.adaptIcePass hb, ?_⟩
      obtain ⟨_, ⟨e, hm⟩ | ⟨e, hm⟩⟩ := adaptIcePass_ok hb
      · obtain ⟨ice2, q1, q2⟩ := (hpp.mergeNodes hair hi hm).2 hl
        exact ⟨by omega, by omega, ice2, q1, q2.trans hti⟩
      · exact ⟨by omega, by omega, ice', by rw [hm]; exact hpp, hti⟩)).1
  obtain ⟨hw3, _, _, ice3, hp3, ht3⟩ := k3
  have hlast := hp3.correctLayer hair hw3 le_rfl hf h4
  rcases Nat.eq_zero_or_pos sn.length with h0 | h0
  · obtain ⟨ice4, q1, q2⟩ := hlast.2 (by omega)
    exact ⟨sn, ice4, rm, q1, ht, q2.trans ht3, hrm⟩
  · obtain ⟨sn4, q1, q2, _⟩ := hlast.1 (by omega)
    exact ⟨sn4, ice3, rm, q1, (q2.append (SameTotals.refl rm)).trans ht, ht3, hrm⟩

/-- **C99** (what the user sees): under the hypotheses of `C99_log_partial` the reported snow height is the same
before and after `log_profile()`. -/
theorem C99_snowheight_partial {g g' : Grid K} {fuel : Nat} {c : Consts K} (hw : g.WF) (hair : 0 ≤ c.airDensity)
    (hf : 0 < c.firstLayerHeight) (hst : 1 ≤ c.layerStretching) {snow ice : List (Node K)}
    (hcol : Parted c g.nodes snow ice)
    (hthick : ice = [] ∨
      c.firstLayerHeight + (c.layerStretching - 1) * sumHeight snow ≤ sumHeight ice)
    (he : g.logProfile fuel c = .ok g') :
    g'.getTotalSnowheight c = g.getTotalSnowheight c := by
  obtain ⟨snow', ice', q1, q2, _⟩ := C99_log_partial hw hair hf hst hcol hthick he
  have hss : ∀ {ns snow ice : List (Node K)}, Parted c ns snow ice →
      pySum ((ns.take (Grid.nSnow c ns)).map Node.height) = sumHeight snow := by
    intro ns snow ice h
    rw [pySum_eq, h.nSnow, h.eq]; simp [sumHeight, columnSum]
  rw [Grid.getTotalSnowheight_eq (hw.logProfile he), Grid.getTotalSnowheight_eq hw, hss q1, hss hcol, q2.height]

end

/-! ### Violation and non-vacuity -/

/-- 2 cm of dry snow over a glacier remnant of 1.1 cm. -/
private def exThin : Grid ℚ := ⟨[⟨2/100, 265, 0, 3/10, 0⟩, ⟨11/1000, 270, 0, 1, 0⟩], 2, 0, 0, 0⟩

/-- **C99** (violation): with the shipped constants `log_profile()` merges the 1.1 cm glacier remnant below 2 cm of
snow into the lowest snow layer: afterwards the column counts as snow only and the reported snow height is 3.1 cm. -/
theorem C99_log_refuted :
    exThin.WF ∧ Parted (Consts.default ℚ) exThin.nodes [⟨2/100, 265, 0, 3/10, 0⟩] [⟨11/1000, 270, 0, 1, 0⟩] ∧
    (exThin.getTotalSnowheight (Consts.default ℚ)).toOption = some (2/100) ∧
    ((exThin.logProfile 60 (Consts.default ℚ)).toOption.bind fun g =>
      (g.getTotalSnowheight (Consts.default ℚ)).toOption) = some (31/1000) ∧
    ((exThin.logProfile 60 (Consts.default ℚ)).toOption.map fun g =>
      g.nodes.all fun n => decide (n.density (Consts.default ℚ) < (Consts.default ℚ).snowIceThreshold)) = some true := by
  refine ⟨by unfold Grid.WF; decide +kernel, ⟨rfl, ?_, ?_⟩, by decide +kernel, by decide +kernel, by decide +kernel⟩
  · unfold DryLayer IsSnow; decide +kernel
  · unfold DryLayer IsIce; decide +kernel

/-- **C99** (violation, as the negation of the full statement). -/
theorem C99_log_not_kept :
    ¬ ∀ (g g' : Grid ℚ) (fuel : Nat), g.WF → g.logProfile fuel (Consts.default ℚ) = .ok g' →
      KeepsParts (Consts.default ℚ) g.nodes g'.nodes := by
  intro hall
  obtain ⟨hw, hp, _, hsn, hsnow⟩ := C99_log_refuted
  rcases hg : exThin.logProfile 60 (Consts.default ℚ) with e | g'
  · rw [hg] at hsn; simp [Except.toOption] at hsn
  · obtain ⟨s', i', q1, _, q3⟩ := hall _ _ _ hw hg _ _ hp
    rw [hg] at hsnow
    simp only [Except.toOption, Option.map_some, Option.some.injEq, List.all_eq_true, decide_eq_true_eq] at hsnow
    have : i' = [] := by
      cases i' with
      | nil => rfl
      | cons b t =>
        exact absurd (hsnow b (by rw [q1.eq]; simp)) (not_lt.2 (q1.ice b (by simp)).2)
    subst this
    have := q3.height
    norm_num [sumHeight, columnSum] at this

private def exSnow99 : List (Node ℚ) := [⟨3/100, 265, 0, 3/10, 0⟩, ⟨5/10000, 268, 0, 2/5, 0⟩, ⟨3/100, 268, 0, 2/5, 0⟩]
private def exIce99 : List (Node ℚ) := [⟨1/10, 270, 0, 1, 0⟩, ⟨1/2, 271, 0, 1, 0⟩]
private def exCol99 : Grid ℚ := ⟨exSnow99 ++ exIce99, 5, 0, 0, 0⟩

example : exCol99.WF ∧ Parted (Consts.default ℚ) exCol99.nodes exSnow99 exIce99 ∧
    (Consts.default ℚ).firstLayerHeight + ((Consts.default ℚ).layerStretching - 1) * sumHeight exSnow99 ≤
      sumHeight exIce99 ∧ 1 ≤ (Consts.default ℚ).layerStretching ∧
    (exCol99.logProfile 60 (Consts.default ℚ)).isOk ∧ (exCol99.adaptiveProfile 60 (Consts.default ℚ)).isOk := by
  refine ⟨by unfold Grid.WF; decide +kernel, ⟨rfl, ?_, ?_⟩, ?_, by decide +kernel, by decide +kernel, by decide +kernel⟩
  · unfold DryLayer IsSnow; decide +kernel
  · unfold DryLayer IsIce; decide +kernel
  · unfold sumHeight columnSum; decide +kernel

end Cosipy
