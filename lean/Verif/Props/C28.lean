import Verif.Lemmas.Densify
import Mathlib.Analysis.Real.Pi.Bounds

/-!
# C28 Densification conserves mass

Refuted. Full statement: if `densification` succeeds, every layer keeps its mass (ice and liquid water). What the code
does is stated exactly: `C28_boone_factor`, `C28_vionnet_factor`, `C28_empirical_change`. With any effect at all, Boone
compaction destroys mass (`C28_boone_loses`). What remains true is `C28_monotone_partial`. The slope, in degrees, is
passed to `np.cos` as radians: on a slope of 3 degrees the Vionnet method makes snow swell
(`C28_vionnet_slope_refuted`).
-/

set_option autoImplicit false
set_option linter.unusedSectionVars false

namespace Cosipy

/-- **C28, what Boone compaction does.** A layer is either unchanged or below the snow/ice threshold and thicker than the
minimum height; then a positive `d` exists by which it shrinks, and its mass is multiplied by `1 - d²` when dry and by
`(1 + d/2)(1 - d)` when wet. -/
theorem C28_boone_factor {c : Consts ℝ} (hc : c.Phys) {g g' : Grid ℝ} {dt : ℝ} (hdt : 0 < dt)
    (hs : ∀ n ∈ g.nodes, 0 < n.height ∧ 0 < n.iceFraction ∧ 0 ≤ n.lwc) (h : methodBoone c g dt = .ok g') :
    List.Forall₂ (fun n m => m = n ∨ (n.density c < c.snowIceThreshold ∧ c.minimumSnowLayerHeight < n.height ∧
      ∃ d, 0 < d ∧ m.height = (1 - d) * n.height ∧
        (n.lwc = 0 → m.mass c = (1 - d * d) * n.mass c) ∧
        (n.lwc ≠ 0 → m.mass c = (1 + d / 2) * (1 - d) * n.mass c))) g.nodes g'.nodes := by
  unfold methodBoone at h
  simp only [bind_eq_ok] at h
  obtain ⟨k, _, rs, hr, h⟩ := h
  rw [pure_eq_ok] at h; subst h
  have := booneLayers_ok hc (dt := dt) le_rfl (by simp) hs hr
  refine List.Forall₂.imp (fun n m hnm => ?_) this
  rcases hnm with rfl | ⟨d, _, hd, hcm⟩
  · exact Or.inl rfl
  · exact Or.inr ⟨hcm.light, hcm.thick, d, hd hdt, hcm.height, hcm.mass.1, hcm.mass.2⟩

theorem sum_lt_of_forall₂ {f : Node ℝ → ℝ} : ∀ {ns rs : List (Node ℝ)},
    List.Forall₂ (fun n m => m = n ∨ f m < f n) ns rs → rs ≠ ns → (rs.map f).sum < (ns.map f).sum := by
  have hle : ∀ {ns rs : List (Node ℝ)}, List.Forall₂ (fun n m => m = n ∨ f m < f n) ns rs →
      (rs.map f).sum ≤ (ns.map f).sum := by
    intro ns rs h
    induction h with
    | nil => exact le_rfl
    | cons a b ih =>
      simp only [List.map_cons, List.sum_cons]
      rcases a with rfl | a
      · linarith
      · linarith
  intro ns rs h
  induction h with
  | nil => intro h; exact absurd rfl h
  | cons a b ih =>
    intro hne
    simp only [List.map_cons, List.sum_cons]
    rcases a with rfl | a
    · have := ih (fun h => hne (by rw [h])); linarith
    · have := hle b; linarith

/-- **C28, refuted for Boone.** Whenever Boone compaction changes a column at all, the column loses mass. -/
theorem C28_boone_loses {c : Consts ℝ} (hc : c.Phys) {g g' : Grid ℝ} {dt : ℝ} (hdt : 0 < dt)
    (hs : ∀ n ∈ g.nodes, 0 < n.height ∧ 0 < n.iceFraction ∧ 0 ≤ n.lwc) (h : methodBoone c g dt = .ok g')
    (hne : g'.nodes ≠ g.nodes) :
    (g'.nodes.map (Node.mass c)).sum < (g.nodes.map (Node.mass c)).sum := by
  unfold methodBoone at h
  simp only [bind_eq_ok] at h
  obtain ⟨k, _, rs, hr, h⟩ := h
  rw [pure_eq_ok] at h; subst h
  have := booneLayers_ok hc (dt := dt) le_rfl (by simp) hs hr
  refine sum_lt_of_forall₂ (?_ : List.Forall₂ _ _ _) hne
  clear hr hne
  generalize g.nodes = ns at *
  induction this with
  | nil => exact .nil
  | cons a b ih =>
    refine .cons ?_ (ih fun n hn => hs n (by simp [hn]))
    rcases a with rfl | ⟨d, _, hd, hcm⟩
    · exact Or.inl rfl
    · exact Or.inr (hcm.loses hc (hd hdt) (hs _ (by simp)))

/-- **C28, refuted, unconditional form.** On every column whose uppermost layer is snow thicker than the minimum height,
Boone compaction returns and the column has lost mass. -/
theorem C28_boone_refuted {c : Consts ℝ} (hc : c.Phys) {g : Grid ℝ} {dt : ℝ} (hw : g.WF) (hdt : 0 < dt)
    (hs : ∀ n ∈ g.nodes, 0 < n.height ∧ 0 < n.iceFraction ∧ 0 ≤ n.lwc) {top : Node ℝ} {rest : List (Node ℝ)}
    (hg : g.nodes = top :: rest) (hlight : top.density c < c.snowIceThreshold) (hthick : c.minimumSnowLayerHeight < top.height) :
    ∃ g', methodBoone c g dt = .ok g' ∧
      (g'.nodes.map (Node.mass c)).sum < (g.nodes.map (Node.mass c)).sum := by
  have hk := Grid.getNumberSnowLayers_eq hw c
  have hle : Grid.nSnow c g.nodes ≤ g.nodes.length := Grid.nSnow_le _ _
  have hpos : Grid.nSnow c g.nodes = Grid.nSnow c rest + 1 := by
    rw [hg]; simp [Grid.nSnow, hlight]
  obtain ⟨rs, hrs⟩ := booneLayers_returns (c := c) (dt := dt) (ms := 0) (p := none) hle
  have hret : methodBoone c g dt = .ok { g with nodes := rs } := by
    unfold methodBoone
    rw [hk, ok_bind, hrs, ok_bind]; rfl
  refine ⟨_, hret, C28_boone_loses hc hdt hs hret ?_⟩
  rw [hpos, hg, booneLayers, if_pos ⟨hlight, hthick⟩] at hrs
  simp only [bind_eq_ok] at hrs
  obtain ⟨d, hd, tl, htl, h⟩ := hrs
  rw [pure_eq_ok] at h; subst h
  have htop := hs top (by rw [hg]; simp)
  have hl := booneLoad_nonneg hc (p := none) (by simp) htop
  have hd0 := (booneRate_pos (by linarith) hd).2 hdt
  show booneUpdate d top :: tl ≠ g.nodes
  rw [hg]
  intro he
  exact booneUpdate_ne hd0 htop.1 (List.cons.inj he).1

/-- **C28, what Vionnet compaction does.** As Boone, with a `d` that has the sign of the cosine of the slope *taken in
radians*. -/
theorem C28_vionnet_factor {c : Consts ℝ} (hc : c.Phys) {g g' : Grid ℝ} {slope dt : ℝ} (hdt : 0 < dt)
    (hs : ∀ n ∈ g.nodes, 0 < n.height ∧ 0 < n.iceFraction ∧ 0 ≤ n.lwc) (h : methodVionnet c g slope dt = .ok g') :
    List.Forall₂ (fun n m => m = n ∨ (n.density c < c.snowIceThreshold ∧ c.minimumSnowLayerHeight < n.height ∧
      ∃ d, (0 < Real.cos slope → 0 < d) ∧ (Real.cos slope < 0 → d < 0) ∧ m.height = (1 - d) * n.height ∧
        (n.lwc = 0 → m.mass c = (1 - d * d) * n.mass c) ∧
        (n.lwc ≠ 0 → m.mass c = (1 + d / 2) * (1 - d) * n.mass c))) g.nodes g'.nodes := by
  unfold methodVionnet at h
  simp only [bind_eq_ok] at h
  obtain ⟨k, _, rs, hr, h⟩ := h
  rw [pure_eq_ok] at h; subst h
  rw [← mul_zero (Real.cos slope)] at hr
  have := vionnetLayers_ok hc hdt le_rfl (by simp) hs hr
  refine List.Forall₂.imp (fun n m hnm => ?_) this
  rcases hnm with rfl | ⟨d, _, hd, hd', hcm⟩
  · exact Or.inl rfl
  · exact Or.inr ⟨hcm.light, hcm.thick, d, hd, hd', hcm.height, hcm.mass.1, hcm.mass.2⟩

/-- **C28, what the empirical method does.** A layer is unchanged, or its density `ρ` is below 600 and afterwards density
times height equals `(ρ' - Δρ) · height` with `Δρ = (600 - ρ) dt / 800000`, not `ρ · height`. -/
theorem C28_empirical_change {c : Consts ℝ} (hc : c.Phys) {g g' : Grid ℝ} {dt : ℝ} (hdt : 0 ≤ dt)
    (hs : ∀ n ∈ g.nodes, 0 < n.height ∧ 0 < n.iceFraction ∧ 0 ≤ n.lwc) (h : methodEmpirical c g dt = .ok g') :
    List.Forall₂ (fun n m => m = n ∨ (n.density c < 600 ∧ m.lwc = n.lwc ∧
      m.density c * m.height = (m.density c - 1 / 800000 * (600 - n.density c) * dt) * n.height)) g.nodes g'.nodes := by
  unfold methodEmpirical at h
  simp only [bind_eq_ok] at h
  obtain ⟨k, _, rs, hr, h⟩ := h
  rw [pure_eq_ok] at h; subst h
  refine empiricalLayers_ok (fun n => Or.inl rfl) (fun n hn m hm => ?_) hr
  rcases empiricalLayer_ok hc hdt (hs n hn) hm with e | ⟨a, _, _, b, _, _, _, e⟩
  · exact Or.inl e
  · exact Or.inr ⟨a, b, e⟩

/-- **C28, what holds.** For every method (Vionnet with a slope whose cosine as computed is not negative), no layer
is added or removed, temperatures and refrozen water are untouched, no layer gets thicker, no layer gets less dense, and
layers at least as dense as the snow/ice threshold and 600 kg m⁻³ are unchanged. Missing: mass conservation, which the
code violates. -/
theorem C28_monotone_partial {c : Consts ℝ} (hc : c.Phys) {g g' : Grid ℝ} {slope dt : ℝ} (hdt : 0 < dt)
    (hs : ∀ n ∈ g.nodes, 0 < n.height ∧ 0 < n.iceFraction ∧ 0 ≤ n.lwc) (hcos : 0 ≤ Real.cos slope)
    (h : densification c g slope dt = .ok g') :
    List.Forall₂ (fun n m => m.temperature = n.temperature ∧ m.refreeze = n.refreeze ∧ m.height ≤ n.height ∧
      n.density c ≤ m.density c ∧ (c.snowIceThreshold ≤ n.density c → 600 ≤ n.density c → m = n)) g.nodes g'.nodes := by
  have key : ∀ {rs : List (Node ℝ)}, List.Forall₂ (fun n m => m = n ∨ ∃ d, 0 ≤ d ∧ Compacted c d n m) g.nodes rs →
      List.Forall₂ (fun n m => m.temperature = n.temperature ∧ m.refreeze = n.refreeze ∧ m.height ≤ n.height ∧
        n.density c ≤ m.density c ∧ (c.snowIceThreshold ≤ n.density c → 600 ≤ n.density c → m = n)) g.nodes rs := by
    intro rs hr
    generalize g.nodes = ns at *
    clear h
    induction hr with
    | nil => exact .nil
    | cons a b ih =>
      refine .cons ?_ (ih fun n hn => hs n (by simp [hn]))
      rcases a with rfl | ⟨d, hd, hcm⟩
      · exact ⟨rfl, rfl, le_rfl, le_rfl, fun _ _ => rfl⟩
      · have hm := hcm.monotone hc hd (hs _ (by simp))
        exact ⟨hcm.temp, hcm.refr, hm.1, hm.2.1, fun ht => absurd hcm.light (not_lt.2 ht)⟩
  unfold densification at h
  split at h
  · unfold methodBoone at h
    simp only [bind_eq_ok] at h
    obtain ⟨k, _, rs, hr, h⟩ := h
    rw [pure_eq_ok] at h; subst h
    refine key (List.Forall₂.imp (fun n m hnm => ?_) (booneLayers_ok hc (dt := dt) le_rfl (by simp) hs hr))
    rcases hnm with rfl | ⟨d, hd, _, hcm⟩
    · exact Or.inl rfl
    · exact Or.inr ⟨d, hd hdt.le, hcm⟩
  · unfold methodVionnet at h
    simp only [bind_eq_ok] at h
    obtain ⟨k, _, rs, hr, h⟩ := h
    rw [pure_eq_ok] at h; subst h
    rw [← mul_zero (Real.cos slope)] at hr
    refine key (List.Forall₂.imp (fun n m hnm => ?_) (vionnetLayers_ok hc hdt le_rfl (by simp) hs hr))
    rcases hnm with rfl | ⟨d, hd, _, _, hcm⟩
    · exact Or.inl rfl
    · exact Or.inr ⟨d, hd hcos, hcm⟩
  · unfold methodEmpirical at h
    simp only [bind_eq_ok] at h
    obtain ⟨k, _, rs, hr, h⟩ := h
    rw [pure_eq_ok] at h; subst h
    refine empiricalLayers_ok (fun n => ⟨rfl, rfl, le_rfl, le_rfl, fun _ _ => rfl⟩) (fun n hn m hm => ?_) hr
    rcases empiricalLayer_ok hc hdt.le (hs n hn) hm with rfl | ⟨a, b, b', _, _, b2, b3, _⟩
    · exact ⟨rfl, rfl, le_rfl, le_rfl, fun _ _ => rfl⟩
    · exact ⟨b, b', b3, b2, fun _ h6 => absurd a (not_lt.2 h6)⟩
  · cases h
    exact List.forall₂_same.2 fun _ _ => ⟨rfl, rfl, le_rfl, le_rfl, fun _ _ => rfl⟩
  · cases h

theorem cos_three_neg : Real.cos 3 < 0 := by
  apply Real.cos_neg_of_pi_div_two_lt_of_lt
  · have := Real.pi_lt_d2; linarith
  · have := Real.pi_gt_three; linarith

/-- **C28, refuted for Vionnet slopes.** On a slope of 3 degrees every snow layer the Vionnet method touches gets
thicker; layers it does not touch keep their height. -/
theorem C28_vionnet_slope_refuted {c : Consts ℝ} (hc : c.Phys) {g g' : Grid ℝ} {dt : ℝ} (hdt : 0 < dt)
    (hs : ∀ n ∈ g.nodes, 0 < n.height ∧ 0 < n.iceFraction ∧ 0 ≤ n.lwc) (h : methodVionnet c g 3 dt = .ok g') :
    List.Forall₂ (fun n m => m = n ∨ n.height < m.height) g.nodes g'.nodes := by
  have := C28_vionnet_factor hc hdt hs h
  generalize g.nodes = ns at *
  generalize g'.nodes = rs at *
  clear h
  induction this with
  | nil => exact .nil
  | cons a b ih =>
    refine .cons ?_ (ih fun n hn => hs n (by simp [hn]))
    rcases a with rfl | ⟨_, _, d, _, hd, he, _⟩
    · exact Or.inl rfl
    · have h1 := hd cos_three_neg
      have h2 := (hs _ List.mem_cons_self).1
      exact Or.inr (by rw [he]; nlinarith)

/-- Half a metre of dry snow and of wet snow on glacier ice. -/
private noncomputable def exCol : Grid ℝ :=
  ⟨[⟨1/2, 263, 0, 1/4, 0⟩, ⟨1/2, 273, 1/20, 1/4, 0⟩, ⟨2, 270, 0, 1, 0⟩], 3, 0, 0, 0⟩

private theorem exCol_ok : ∀ n ∈ exCol.nodes, 0 < n.height ∧ 0 < n.iceFraction ∧ 0 ≤ n.lwc := by
  intro n hn
  simp only [exCol, List.mem_cons, List.not_mem_nil, or_false] at hn
  rcases hn with rfl | rfl | rfl <;> norm_num

/-- The hypotheses are met, the methods return, and Boone compaction really changes the column. -/
example : ∃ g', methodBoone (Consts.default ℝ) exCol 3600 = .ok g' ∧
    (g'.nodes.map (Node.mass (Consts.default ℝ))).sum < (exCol.nodes.map (Node.mass (Consts.default ℝ))).sum := by
  refine C28_boone_refuted Consts.default_phys rfl (by norm_num) exCol_ok (top := ⟨1/2, 263, 0, 1/4, 0⟩) rfl ?_ ?_
  · unfold Node.density Node.airPorosity; rw [pyMax_eq]; norm_num [Consts.default]
  · norm_num [Consts.default]

example (slope : ℝ) : ∃ g', methodVionnet (Consts.default ℝ) exCol slope 3600 = .ok g' := by
  have hk := Grid.getNumberSnowLayers_eq (g := exCol) rfl (Consts.default ℝ)
  have hle : Grid.nSnow (Consts.default ℝ) exCol.nodes ≤ exCol.nodes.length := Grid.nSnow_le _ _
  obtain ⟨rs, hrs⟩ := vionnetLayers_returns (c := Consts.default ℝ) (slope := slope) (dt := 3600) (sig := 0) (p := none) hle
  unfold methodVionnet
  rw [hk, ok_bind, hrs, ok_bind]
  exact ⟨_, rfl⟩

end Cosipy
