import Verif.Props.C20

/-!
# C114 Refreezing takes each layer by itself

Colder and wetter layers refreeze at least as much, dividing layers changes nothing, and freezing stops when the water, the
pore space or the cold is used up. The last part fails: the amount is limited by the cold of the ice alone, while the
latent heat warms ice and water, so that a layer that was below the melting point stays below it, with water in it.
-/

set_option autoImplicit false
set_option linter.unusedSectionVars false

namespace Cosipy
section
variable {α : Type} [Add α] [Sub α] [Mul α] [Div α] [Neg α] [LT α] [LE α]
  [DecidableLT α] [DecidableLE α] [BEq α] [Zero α] [One α] [NatCast α] [OfScientific α]

theorem refreezeLayers_layers {c : Consts α} : ∀ (ns : List (Node α)) {acc t : α} {ms : List (Node α)},
    refreezeLayers c acc ns = .ok (ms, t) → List.Forall₂ (fun n m => (refreezeLayer c n).map Prod.fst = .ok m) ns ms := by
  intro ns
  induction ns with
  | nil => intro acc t ms h; rw [refreezeLayers] at h; cases h; exact .nil
  | cons n ns ih =>
    intro acc t ms h
    rw [refreezeLayers, bind_eq_ok] at h
    obtain ⟨⟨n', d⟩, h1, h⟩ := h
    simp only [bind_eq_ok] at h
    obtain ⟨⟨ns', t'⟩, h2, h⟩ := h
    rw [pure_eq_ok] at h; cases h
    exact .cons (by rw [h1]; rfl) (ih h2)

/-- **C114, layer by layer.** What becomes of a layer does not depend on the other layers nor on its place in the column. Any
arithmetic. -/
theorem C114_own {c : Consts α} {g h g' h' : Grid α} {t u : α} (hg : refreezing c g = .ok (g', t))
    (hh : refreezing c h = .ok (h', u)) {i j : Nat} (hij : g.nodes[i]? = h.nodes[j]?) : g'.nodes[i]? = h'.nodes[j]? := by
  unfold refreezing at hg hh
  rw [bind_eq_ok] at hg hh
  obtain ⟨⟨ns, t'⟩, h1, hg⟩ := hg
  obtain ⟨⟨ms, u'⟩, h2, hh⟩ := hh
  rw [pure_eq_ok] at hg hh
  cases hg; cases hh
  have f1 := refreezeLayers_layers _ h1
  have f2 := refreezeLayers_layers _ h2
  show ns[i]? = ms[j]?
  have l1 := f1.length_eq
  have l2 := f2.length_eq
  by_cases hi : i < g.nodes.length
  · rw [List.getElem?_eq_getElem hi] at hij
    obtain ⟨hj, e⟩ := List.getElem?_eq_some_iff.1 hij.symm
    have a1 := List.forall₂_iff_get.1 f1 |>.2 i hi (l1 ▸ hi)
    have a2 := List.forall₂_iff_get.1 f2 |>.2 j hj (l2 ▸ hj)
    simp only [List.get_eq_getElem] at a1 a2
    rw [e, a1, ok_inj] at a2
    rw [List.getElem?_eq_getElem (l1 ▸ hi), List.getElem?_eq_getElem (l2 ▸ hj), a2]
  · rw [List.getElem?_eq_none (by omega), eq_comm, List.getElem?_eq_none_iff] at hij
    rw [List.getElem?_eq_none (by omega), List.getElem?_eq_none (by omega)]

end
section
variable {K : Type} [Field K] [LinearOrder K] [IsStrictOrderedRing K]

/-! ### Colder and wetter -/

/-- `m` is as thick and has as much ice as `n`, and is colder and wetter or equal. -/
structure ColderWetter (n m : Node K) : Prop where
  height : m.height = n.height
  ice : m.iceFraction = n.iceFraction
  cold : m.temperature ≤ n.temperature
  wet : n.lwc ≤ m.lwc

/-- The refrozen water of a layer. -/
theorem refreeze_closed {c : Consts K} (hc : c.Phys) {n m : Node K} {d : K} (hv : ValidLayer c n)
    (h : refreezeLayer c n = .ok (m, d)) :
    m.refreeze = max 0 (min (min n.lwc (max ((phiIceMax c - n.iceFraction) * (c.iceDensity / c.waterDensity)) 0))
      (c.specHeatIce * c.iceDensity * n.iceFraction * (c.zeroTemperature - n.temperature) /
        (c.waterDensity * c.latHeatMelting))) * n.height := by
  have hwd := hc.water
  have hid := hc.ice
  have hL := hc.melt
  have hci := hc.cIce
  have hi0 := hv.ice0
  by_cases hs : n.temperature ≤ c.zeroTemperature ∧ 0 < n.lwc
  · obtain ⟨θ, hθ, _, _, _, _, e5, _⟩ := refreezeLayer_freeze hs h
    have e := (C20_code_limit_inactive hc hv hs.2 hs.1 hθ).1
    have b := (refreezeAmount_bounds hc hi0 hs.2 hs.1 hv.cold hθ).1
    rw [e5, ← e, max_eq_right b]
  · obtain ⟨rfl, _⟩ := refreezeLayer_skip hs h
    have : min (min n.lwc (max ((phiIceMax c - n.iceFraction) * (c.iceDensity / c.waterDensity)) 0))
      (c.specHeatIce * c.iceDensity * n.iceFraction * (c.zeroTemperature - n.temperature) /
        (c.waterDensity * c.latHeatMelting)) ≤ 0 := by
      by_cases hT : n.temperature ≤ c.zeroTemperature
      · have : n.lwc ≤ 0 := not_lt.1 fun h => hs ⟨hT, h⟩
        exact (min_le_left _ _).trans ((min_le_left _ _).trans this)
      · refine (min_le_right _ _).trans (div_nonpos_of_nonpos_of_nonneg ?_ (by positivity))
        exact mul_nonpos_of_nonneg_of_nonpos (by positivity) (by linarith [not_le.1 hT])
    rw [max_eq_left this, zero_mul]

theorem refreeze_mono {c : Consts K} (hc : c.Phys) {n m n' m' : Node K} {d d' : K} (hn : ValidLayer c n) (hm : ValidLayer c m)
    (hh : 0 ≤ n.height) (hr : ColderWetter n m) (h : refreezeLayer c n = .ok (n', d)) (h' : refreezeLayer c m = .ok (m', d')) :
    n'.refreeze ≤ m'.refreeze := by
  rw [refreeze_closed hc hn h, refreeze_closed hc hm h', hr.height, hr.ice]
  have hwd := hc.water
  have hid := hc.ice
  have hL := hc.melt
  have hci := hc.cIce
  have hi0 := hn.ice0
  have h1 := hr.cold
  refine mul_le_mul_of_nonneg_right (max_le_max le_rfl (min_le_min (min_le_min hr.wet le_rfl) ?_)) hh
  gcongr

/-- **C114, comparison.** In a column that is colder and wetter, every layer refreezes at least as much, and so does the
column. -/
theorem C114_colder_wetter {c : Consts K} (hc : c.Phys) {g h g' h' : Grid K} {t u : K}
    (hr : List.Forall₂ ColderWetter g.nodes h.nodes) (hg : ∀ n ∈ g.nodes, ValidLayer c n ∧ 0 ≤ n.height)
    (hh : ∀ n ∈ h.nodes, ValidLayer c n) (h1 : refreezing c g = .ok (g', t)) (h2 : refreezing c h = .ok (h', u)) :
    List.Forall₂ (fun a b => a.refreeze ≤ b.refreeze) g'.nodes h'.nodes ∧ t ≤ u := by
  obtain ⟨f1, rfl, _⟩ := refreezing_ok h1
  obtain ⟨f2, rfl, _⟩ := refreezing_ok h2
  clear h1 h2
  generalize g.nodes = ns at hr hg f1
  generalize h.nodes = ms at hr hh f2
  generalize g'.nodes = ns' at f1
  generalize h'.nodes = ms' at f2
  induction hr generalizing ns' ms' with
  | nil => cases f1; cases f2; exact ⟨.nil, le_rfl⟩
  | @cons n m ns ms hab _ ih =>
    cases f1 with
    | cons a1 b1 =>
      cases f2 with
      | cons a2 b2 =>
        obtain ⟨d, a1⟩ := a1
        obtain ⟨d', a2⟩ := a2
        obtain ⟨i1, i2⟩ := ih (fun x hx => hg x (List.mem_cons_of_mem _ hx)) (fun x hx => hh x (List.mem_cons_of_mem _ hx))
          _ b1 _ b2
        have := refreeze_mono hc (hg n (by simp)).1 (hh m (by simp)) (hg n (by simp)).2 hab a1 a2
        exact ⟨.cons this i1, by rw [columnSum_cons, columnSum_cons]; linarith⟩

/-! ### Dividing layers -/

/-- `ms` are the pieces of `n`. -/
structure Pieces (n : Node K) (ms : List (Node K)) : Prop where
  state : ∀ m ∈ ms, m.temperature = n.temperature ∧ m.lwc = n.lwc ∧ m.iceFraction = n.iceFraction
  height : (ms.map fun m => m.height).sum = n.height

theorem refreezeAmount_state (c : Consts K) {n m : Node K} (h1 : m.temperature = n.temperature) (h2 : m.lwc = n.lwc)
    (h3 : m.iceFraction = n.iceFraction) : refreezeAmount c m = refreezeAmount c n := by
  unfold refreezeAmount
  rw [h1, h2, h3]

theorem refreezeLayer_state {c : Consts K} {n n' : Node K} {d : K} (h : refreezeLayer c n = .ok (n', d)) :
    ∃ θ, n'.height = n.height ∧ n'.refreeze = θ * n.height ∧ ∀ m : Node K, m.temperature = n.temperature → m.lwc = n.lwc →
      m.iceFraction = n.iceFraction → ∃ d', refreezeLayer c m =
        .ok (⟨m.height, n'.temperature, n'.lwc, n'.iceFraction, θ * m.height⟩, d') := by
  by_cases hs : n.temperature ≤ c.zeroTemperature ∧ 0 < n.lwc
  · unfold refreezeLayer at h
    rw [if_pos hs, bind_eq_ok] at h
    obtain ⟨θ, hθ, h⟩ := h
    simp only [bind_eq_ok] at h
    obtain ⟨u, hu, dT, hdT, h⟩ := h
    by_cases hneg : n.temperature + dT < 0
    · rw [if_pos hneg] at h; cases h
    · rw [if_neg hneg, pure_eq_ok, Prod.mk.injEq] at h
      obtain ⟨rfl, -⟩ := h
      refine ⟨θ, rfl, rfl, fun m e1 e2 e3 => ⟨θ * m.height, ?_⟩⟩
      unfold refreezeLayer
      rw [e1, e2, if_pos hs, refreezeAmount_state c e1 e2 e3, hθ, ok_bind]
      simp only [e3, hu, ok_bind]
      have hdT' : fdiv (θ * (c.waterDensity * c.latHeatMelting))
          (c.specHeatIce * c.iceDensity *
              ((m.setLwc (n.lwc - θ)).setIceFraction (n.iceFraction + c.waterDensity / c.iceDensity * θ)).iceFraction +
            c.specHeatWater * c.waterDensity *
              ((m.setLwc (n.lwc - θ)).setIceFraction (n.iceFraction + c.waterDensity / c.iceDensity * θ)).lwc) = .ok dT := hdT
      rw [hdT', ok_bind, if_neg hneg]
      rfl
  · obtain ⟨rfl, _⟩ := refreezeLayer_skip hs h
    refine ⟨0, rfl, by simp, fun m e1 e2 e3 => ⟨0, ?_⟩⟩
    unfold refreezeLayer
    rw [e1, e2, if_neg hs]
    obtain ⟨mh, mt, ml, mi, mr⟩ := m
    simp only at e1 e2 e3
    subst e1 e2 e3
    simp [Node.setRefreeze, pure, Except.pure]

theorem refreezeLayers_of {c : Consts K} : ∀ {ns ms : List (Node K)} (acc : K),
    List.Forall₂ (fun n m => ∃ d, refreezeLayer c n = .ok (m, d)) ns ms → ∃ t, refreezeLayers c acc ns = .ok (ms, t)
  | [], _, acc, .nil => ⟨acc, rfl⟩
  | n :: ns, _, acc, .cons ⟨d, h⟩ hs => by
    obtain ⟨t, ht⟩ := refreezeLayers_of (acc + d) hs
    refine ⟨t, ?_⟩
    rw [refreezeLayers, h, ok_bind]
    simp only [ht, ok_bind]
    rfl

theorem refreeze_pieces {c : Consts K} {n n' : Node K} {d : K} (h : refreezeLayer c n = .ok (n', d)) {ms : List (Node K)}
    (hp : Pieces n ms) : ∃ ms', List.Forall₂ (fun n m => ∃ d, refreezeLayer c n = .ok (m, d)) ms ms' ∧ Pieces n' ms' ∧
      columnSum (fun m => m.refreeze) ms' = n'.refreeze ∧ ms'.map (fun m => m.height) = ms.map (fun m => m.height) := by
  obtain ⟨θ, e1, e2, e3⟩ := refreezeLayer_state h
  have key : ∀ ms : List (Node K), (∀ m ∈ ms, m.temperature = n.temperature ∧ m.lwc = n.lwc ∧ m.iceFraction = n.iceFraction) →
      ∃ ms', List.Forall₂ (fun n m => ∃ d, refreezeLayer c n = .ok (m, d)) ms ms' ∧
        (∀ m ∈ ms', m.temperature = n'.temperature ∧ m.lwc = n'.lwc ∧ m.iceFraction = n'.iceFraction) ∧
        columnSum (fun m => m.refreeze) ms' = θ * (ms.map fun m => m.height).sum ∧
        ms'.map (fun m => m.height) = ms.map (fun m => m.height) := by
    intro ms
    induction ms with
    | nil => intro _; exact ⟨[], .nil, by simp, by simp, rfl⟩
    | cons m ms ih =>
      intro hst
      obtain ⟨ms', i1, i2, i3, i4⟩ := ih fun x hx => hst x (List.mem_cons_of_mem _ hx)
      obtain ⟨f1, f2, f3⟩ := hst m (by simp)
      obtain ⟨d', hd⟩ := e3 m f1 f2 f3
      refine ⟨_ :: ms', .cons ⟨d', hd⟩ i1, ?_, ?_, ?_⟩
      · intro x hx
        rcases List.mem_cons.1 hx with rfl | hx
        · exact ⟨rfl, rfl, rfl⟩
        · exact i2 x hx
      · rw [columnSum_cons, i3, List.map_cons, List.sum_cons, mul_add]
      · rw [List.map_cons, List.map_cons, i4]
  obtain ⟨ms', k1, k2, k3, k4⟩ := key ms hp.state
  exact ⟨ms', k1, ⟨k2, by rw [k4, hp.height, e1]⟩, by rw [k3, hp.height, e2], k4⟩

/-- **C114, dividing.** A column whose layers are divided into any number of pieces refreezes as much in total, and in the
pieces of each layer together as much as in the layer; the pieces stay pieces of the layer. -/
theorem C114_divided {c : Consts K} {g h g' : Grid K} {t : K} {mss : List (List (Node K))}
    (hp : List.Forall₂ Pieces g.nodes mss) (hh : h.nodes = mss.flatten) (h1 : refreezing c g = .ok (g', t)) :
    ∃ h' mss', refreezing c h = .ok (h', t) ∧ h'.nodes = mss'.flatten ∧
      List.Forall₂ (fun m ms => Pieces m ms ∧ (ms.map fun x => x.refreeze).sum = m.refreeze) g'.nodes mss' := by
  obtain ⟨f1, rfl, _⟩ := refreezing_ok h1
  clear h1
  have key : ∀ {ns ns' : List (Node K)} {mss : List (List (Node K))}, List.Forall₂ Pieces ns mss →
      List.Forall₂ (fun n m => ∃ d, refreezeLayer c n = .ok (m, d)) ns ns' →
      ∃ mss', List.Forall₂ (fun n m => ∃ d, refreezeLayer c n = .ok (m, d)) mss.flatten mss'.flatten ∧
        List.Forall₂ (fun m ms => Pieces m ms ∧ columnSum (fun x => x.refreeze) ms = m.refreeze) ns' mss' ∧
        columnSum (fun x => x.refreeze) mss'.flatten = columnSum (fun x => x.refreeze) ns' := by
    intro ns ns' mss hp hf
    induction hp generalizing ns' with
    | nil => cases hf; exact ⟨[], .nil, .nil, rfl⟩
    | @cons n ms ns mss hab _ ih =>
      cases hf with
      | cons a b =>
        obtain ⟨d, a⟩ := a
        obtain ⟨mss', i1, i2, i3⟩ := ih b
        obtain ⟨ms', j1, j2, j3, _⟩ := refreeze_pieces a hab
        refine ⟨ms' :: mss', ?_, .cons ⟨j2, j3⟩ i2, ?_⟩
        · rw [List.flatten_cons, List.flatten_cons]
          exact List.rel_append j1 i1
        · rw [List.flatten_cons, columnSum_append, columnSum_cons, i3, j3]
  obtain ⟨mss', k1, k2, k3⟩ := key hp f1
  obtain ⟨t', ht⟩ := refreezeLayers_of 0 k1
  have hr : refreezing c h = .ok ({ h with nodes := mss'.flatten }, t') := by
    unfold refreezing
    rw [hh, ht, ok_bind]
    rfl
  have ht' := (refreezing_ok hr).2.1
  simp only at ht'
  rw [k3] at ht'
  subst ht'
  exact ⟨_, mss', hr, rfl, k2⟩

/-! ### What limits the freezing -/

/-- **C114, limits.** In a layer that is not above the melting point freezing stops because no water is left, because the
layer has become glacier ice, or because the latent heat equals the cold of the ice the layer had before. -/
theorem C114_stops_partial {c : Consts K} (hc : c.Phys) {g g' : Grid K} {t : K} (hv : ∀ n ∈ g.nodes, ValidLayer c n)
    (h : refreezing c g = .ok (g', t)) :
    List.Forall₂ (fun n m => n.temperature ≤ c.zeroTemperature → m.lwc = 0 ∨
      c.snowIceThreshold ≤ m.iceFraction * c.iceDensity + (1 - m.iceFraction) * c.airDensity ∨
      c.latHeatMelting * (c.waterDensity * (n.lwc - m.lwc)) =
        c.specHeatIce * (c.iceDensity * n.iceFraction) * (c.zeroTemperature - n.temperature)) g.nodes g'.nodes := by
  have hwd := hc.water
  have hid := hc.ice
  have hL := hc.melt
  have hair := hc.air_lt
  refine forall₂_imp_mem (refreezing_ok h).1 fun n hn m ⟨d, hd⟩ hT => ?_
  have hvn := hv n hn
  by_cases hs : n.temperature ≤ c.zeroTemperature ∧ 0 < n.lwc
  · obtain ⟨θ, hθ, _, _, e3, e4, _⟩ := refreezeLayer_freeze hs hd
    have e := (C20_code_limit_inactive hc hvn hs.2 hs.1 hθ).1
    rcases min_choice (min n.lwc (max ((phiIceMax c - n.iceFraction) * (c.iceDensity / c.waterDensity)) 0))
      (c.specHeatIce * c.iceDensity * n.iceFraction * (c.zeroTemperature - n.temperature) /
        (c.waterDensity * c.latHeatMelting)) with k | k <;> rw [k] at e
    · rcases min_choice n.lwc (max ((phiIceMax c - n.iceFraction) * (c.iceDensity / c.waterDensity)) 0) with k2 | k2 <;>
        rw [k2] at e
      · left; rw [e3, e, sub_self]
      · right; left
        have hge : phiIceMax c ≤ m.iceFraction := by
          rw [e4, e]
          rcases le_total (phiIceMax c - n.iceFraction) 0 with hneg | hpos
          · have : 0 ≤ c.waterDensity / c.iceDensity * max ((phiIceMax c - n.iceFraction) * (c.iceDensity / c.waterDensity)) 0 := by
              positivity
            linarith
          · rw [max_eq_left (mul_nonneg hpos (by positivity))]
            have e : c.waterDensity / c.iceDensity * ((phiIceMax c - n.iceFraction) * (c.iceDensity / c.waterDensity)) =
              phiIceMax c - n.iceFraction := by field_simp
            linarith
        have hthr := hc.thr_le
        unfold phiIceMax at hge
        rw [div_le_iff₀ (by linarith)] at hge
        linarith
    · right; right
      rw [e3, e]
      field_simp
      ring
  · left
    obtain ⟨rfl, _⟩ := refreezeLayer_skip hs hd
    exact le_antisymm (not_lt.1 fun h => hs ⟨hT, h⟩) hvn.lwc0

/-- **C114, the cold is never used up.** A layer below the melting point is still below it after refreezing, however
much water it has. -/
theorem C114_stays_cold {c : Consts K} (hc : c.Phys) {g g' : Grid K} {t : K} (hv : ∀ n ∈ g.nodes, ValidLayer c n)
    (h : refreezing c g = .ok (g', t)) :
    List.Forall₂ (fun n m => n.temperature < c.zeroTemperature → m.temperature < c.zeroTemperature) g.nodes g'.nodes := by
  have hwd := hc.water
  have hid := hc.ice
  have hL := hc.melt
  have hci := hc.cIce
  have hcw := hc.cW
  refine forall₂_imp_mem (refreezing_ok h).1 fun n hn m ⟨d, hd⟩ hT => ?_
  have hvn := hv n hn
  by_cases hs : n.temperature ≤ c.zeroTemperature ∧ 0 < n.lwc
  · obtain ⟨θ, hθ, _, _, e3, e4, _, _, e7, _⟩ := refreezeLayer_freeze hs hd
    obtain ⟨b0, b1, _, b3⟩ := refreezeAmount_bounds hc hvn.ice0 hs.2 hs.1 hvn.cold hθ
    have hlt : c.specHeatIce * c.iceDensity * n.iceFraction < m.heatCap c := by
      unfold Node.heatCap
      rw [e3, e4]
      have h1 : 0 < c.specHeatIce * c.iceDensity := by positivity
      have h2 : 0 < c.specHeatWater * c.waterDensity := by positivity
      rcases lt_or_eq_of_le b1 with hb | hb
      · have := mul_pos h2 (sub_pos.2 hb)
        have := mul_nonneg h1.le (mul_nonneg (div_pos hwd hid).le b0)
        linarith
      · have := mul_pos h1 (mul_pos (div_pos hwd hid) (hb ▸ hs.2))
        rw [hb, sub_self, mul_zero]
        rw [hb] at this
        linarith
    have hcap : 0 < m.heatCap c := lt_of_le_of_lt (mul_nonneg (by positivity) hvn.ice0) hlt
    rw [e7, ← sub_pos]
    have hd0 : 0 < c.zeroTemperature - n.temperature := by linarith
    have : θ * (c.waterDensity * c.latHeatMelting) / m.heatCap c < c.zeroTemperature - n.temperature := by
      rw [div_lt_iff₀ hcap]
      have := mul_lt_mul_of_pos_right hlt hd0
      linarith
    linarith
  · obtain ⟨rfl, _⟩ := refreezeLayer_skip hs hd
    exact hT

end

private def exWet : Grid ℚ := ⟨[⟨1/10, 271, 1/20, 1/2, 0⟩, ⟨1/5, 260, 1/50, 2/5, 0⟩, ⟨1/2, 272, 0, 1, 0⟩], 3, 0, 0, 0⟩
private def exWetter : Grid ℚ := ⟨[⟨1/10, 270, 1/20, 1/2, 0⟩, ⟨1/5, 250, 1/10, 2/5, 0⟩, ⟨1/2, 272, 0, 1, 0⟩], 3, 0, 0, 0⟩
private def exPieces : List (List (Node ℚ)) :=
  [[⟨1/20, 271, 1/20, 1/2, 0⟩, ⟨1/20, 271, 1/20, 1/2, 0⟩], [⟨1/5, 260, 1/50, 2/5, 0⟩], [⟨1/4, 272, 0, 1, 0⟩, ⟨1/4, 272, 0, 1, 0⟩]]

/-- **C114** fails in general: after refreezing, the top layer of this column is below the melting point, has water and is
snow; refreezing it again freezes more. -/
theorem C114_refuted : ¬ ∀ (c : Consts ℚ) (g g' : Grid ℚ) (t : ℚ), c.Phys → (∀ n ∈ g.nodes, ValidLayer c n) →
    refreezing c g = .ok (g', t) → ∀ m ∈ g'.nodes, m.lwc = 0 ∨ c.zeroTemperature ≤ m.temperature ∨
      c.snowIceThreshold ≤ m.iceFraction * c.iceDensity + (1 - m.iceFraction) * c.airDensity := by
  intro hall
  have hv : ∀ n ∈ exWet.nodes, ValidLayer (Consts.default ℚ) n := by
    intro n hn
    simp only [exWet, List.mem_cons, List.not_mem_nil, or_false] at hn
    rcases hn with rfl | rfl | rfl <;> refine ⟨?_, ?_, ?_, ?_, ?_, ?_⟩ <;> decide +kernel
  obtain ⟨⟨g', t⟩, h⟩ := C19_returns Consts.default_phys hv
  have := hall _ _ _ _ Consts.default_phys hv h
  have key : (refreezing (Consts.default ℚ) exWet).toOption.map (fun p => p.1.nodes.all fun m =>
      decide (m.lwc = 0 ∨ (Consts.default ℚ).zeroTemperature ≤ m.temperature ∨
      (Consts.default ℚ).snowIceThreshold ≤ m.iceFraction * (Consts.default ℚ).iceDensity +
        (1 - m.iceFraction) * (Consts.default ℚ).airDensity)) = some false := by decide +kernel
  rw [h] at key
  simp only [Except.toOption, Option.map_some, Option.some.injEq] at key
  have h2 : (g'.nodes.all fun m =>
      decide (m.lwc = 0 ∨ (Consts.default ℚ).zeroTemperature ≤ m.temperature ∨
      (Consts.default ℚ).snowIceThreshold ≤ m.iceFraction * (Consts.default ℚ).iceDensity +
        (1 - m.iceFraction) * (Consts.default ℚ).airDensity)) = true := by
    rw [List.all_eq_true]
    intro m hm
    exact decide_eq_true (this m hm)
  rw [h2] at key
  cases key

/-! Non-vacuity: a column, a colder and wetter one, and a divided one; refreezing completes and freezes something. -/
example : List.Forall₂ ColderWetter exWet.nodes exWetter.nodes := by
  refine .cons ⟨?_, ?_, ?_, ?_⟩ (.cons ⟨?_, ?_, ?_, ?_⟩ (.cons ⟨?_, ?_, ?_, ?_⟩ .nil)) <;> decide +kernel
example : ∀ n ∈ exWetter.nodes, ValidLayer (Consts.default ℚ) n := by
  intro n hn
  simp only [exWetter, List.mem_cons, List.not_mem_nil, or_false] at hn
  rcases hn with rfl | rfl | rfl <;> refine ⟨?_, ?_, ?_, ?_, ?_, ?_⟩ <;> decide +kernel
example : List.Forall₂ Pieces exWet.nodes exPieces := by
  refine .cons ⟨by decide +kernel, by decide +kernel⟩ (.cons ⟨by decide +kernel, by decide +kernel⟩
    (.cons ⟨by decide +kernel, by decide +kernel⟩ .nil))
example : ((refreezing (Consts.default ℚ) exWet).toOption.map fun p => decide (0 < p.2)) = some true ∧
    ((refreezing (Consts.default ℚ) exWetter).toOption.map fun p => decide (0 < p.2)) = some true := by decide +kernel

end Cosipy
