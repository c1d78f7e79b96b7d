import Verif.Model.Albedo
import Verif.Model.Real
import Verif.Lemmas.Grid
import Verif.Lemmas.Arith
import Verif.Spec.Column
import Verif.Spec.Phys

/-!
# C29 Oerlemans albedo stays in its physical range and ages monotonically

Over the real numbers, for constants in the documented order (`Consts.AlbedoOrder`, met by the shipped ones). The age is
the one of the column after the call: the call itself may replace the age by that of the underlying snow.
-/

set_option autoImplicit false
set_option linter.unusedSectionVars false

namespace Cosipy

theorem getSurfaceProperties_spec {K : Type} [Field K] [LinearOrder K] [IsStrictOrderedRing K] (c : Consts K) (g : Grid K) :
    (getSurfaceProperties c g).1.nodes = g.nodes ∧ (getSurfaceProperties c g).1.numberNodes = g.numberNodes ∧
    (getSurfaceProperties c g).2 = (getSurfaceProperties c g).1.newSnowTimestamp / 3600 ∧
    ((getSurfaceProperties c g).1 = g ∨ (getSurfaceProperties c g).1 = g.setFreshSnowPropsToOldProps) := by
  have e : (3600.0 : K) = 3600 := by norm_num
  unfold getSurfaceProperties
  simp only [e]
  split_ifs
  · exact ⟨rfl, rfl, rfl, Or.inr rfl⟩
  · exact ⟨rfl, rfl, rfl, Or.inl rfl⟩

/-- Formula of the albedo of a snow surface of age `t` seconds and snow depth `h`. -/
noncomputable def oerlemansAlbedo (c : Consts ℝ) (t h : ℝ) : ℝ :=
  let s := c.albedoFirn + (c.albedoFreshSnow - c.albedoFirn) * Real.exp (-(t / 3600) / (c.albedoModSnowAging * 24))
  s + (c.albedoIce - s) * Real.exp (-h / (c.albedoModSnowDepth / 100))

theorem oerlemans_ok {c : Consts ℝ} {g g' : Grid ℝ} {a : ℝ} (h : methodOerlemans c g = .ok (g', a)) :
    g'.nodes = g.nodes ∧ (g' = g ∨ g' = g.setFreshSnowPropsToOldProps) ∧ ∃ top rest, g.nodes = top :: rest ∧
      (top.density c ≤ c.snowIceThreshold → ∃ hs, g.getTotalSnowheight c = .ok hs ∧
        a = oerlemansAlbedo c g'.newSnowTimestamp hs) ∧
      (c.snowIceThreshold < top.density c → a = c.albedoIce) := by
  obtain ⟨p1, p2, p3, p4⟩ := getSurfaceProperties_spec c g
  unfold methodOerlemans at h
  generalize getSurfaceProperties c g = p at *
  obtain ⟨g1, hours⟩ := p
  simp only at p1 p2 p3 p4 h
  simp only [bind_eq_ok] at h
  obtain ⟨top, htop, h⟩ := h
  have hcons : ∃ rest, g.nodes = top :: rest := by
    unfold Grid.node at htop
    rw [p1] at htop
    cases hn : g.nodes with
    | nil => rw [hn] at htop; cases htop
    | cons a l => rw [hn, pyGet_zero] at htop; cases htop; exact ⟨l, rfl⟩
  obtain ⟨rest, hcons⟩ := hcons
  split_ifs at h with hd
  · simp only [bind_eq_ok] at h
    obtain ⟨hs, hhs, h⟩ := h
    rw [pure_eq_ok] at h
    cases h
    refine ⟨p1, p4, top, rest, hcons, fun _ => ⟨hs, ?_, ?_⟩, fun hlt => absurd hd (not_le.2 hlt)⟩
    · rcases p4 with rfl | rfl
      · exact hhs
      · exact hhs
    · rw [p3]
      unfold oerlemansAlbedo getAlbedoWithDecay getSimpleAlbedo
      have e1 : (24.0 : ℝ) = 24 := by norm_num
      have e2 : (-1.0 : ℝ) = -1 := by norm_num
      have e3 : (100.0 : ℝ) = 100 := by norm_num
      simp only [e1, e2, e3, neg_one_mul]
      rfl
  · rw [pure_eq_ok] at h
    cases h
    exact ⟨p1, p4, top, rest, hcons, fun h => absurd h hd, fun _ => rfl⟩

theorem oerlemansAlbedo_range {c : Consts ℝ} (ho : c.AlbedoOrder) {t h : ℝ} (ht : 0 ≤ t) (hh : 0 ≤ h) :
    c.albedoIce ≤ oerlemansAlbedo c t h ∧ oerlemansAlbedo c t h ≤ c.albedoFreshSnow := by
  have h1 := ho.ice_le; have h2 := ho.firn_le; have h3 := ho.aging; have h4 := ho.depth
  unfold oerlemansAlbedo
  have a1 : Real.exp (-(t / 3600) / (c.albedoModSnowAging * 24)) ≤ 1 := by
    rw [Real.exp_le_one_iff, neg_div]; have : 0 ≤ t / 3600 / (c.albedoModSnowAging * 24) := by positivity
    linarith
  have a2 : Real.exp (-h / (c.albedoModSnowDepth / 100)) ≤ 1 := by
    rw [Real.exp_le_one_iff, neg_div]; have : 0 ≤ h / (c.albedoModSnowDepth / 100) := by positivity
    linarith
  have b1 := Real.exp_pos (-(t / 3600) / (c.albedoModSnowAging * 24))
  have b2 := Real.exp_pos (-h / (c.albedoModSnowDepth / 100))
  generalize Real.exp (-(t / 3600) / (c.albedoModSnowAging * 24)) = x at *
  generalize Real.exp (-h / (c.albedoModSnowDepth / 100)) = y at *
  simp only
  have s1 : c.albedoIce ≤ c.albedoFirn + (c.albedoFreshSnow - c.albedoFirn) * x := by nlinarith
  have s2 : c.albedoFirn + (c.albedoFreshSnow - c.albedoFirn) * x ≤ c.albedoFreshSnow := by nlinarith
  generalize c.albedoFirn + (c.albedoFreshSnow - c.albedoFirn) * x = s at *
  constructor <;> nlinarith

/-- **C29, range.** The albedo of a snow surface lies between the albedos of ice and of fresh snow, and an ice surface
has the ice albedo. -/
theorem C29_range {c : Consts ℝ} (ho : c.AlbedoOrder) {g g' : Grid ℝ} {a : ℝ} (hw : g.WF)
    (hh : ∀ n ∈ g.nodes, 0 ≤ n.height) (ht : 0 ≤ g.newSnowTimestamp) (ht' : 0 ≤ g.oldSnowTimestamp)
    (h : methodOerlemans c g = .ok (g', a)) :
    c.albedoIce ≤ a ∧ a ≤ c.albedoFreshSnow ∧
    (∀ top rest, g.nodes = top :: rest → c.snowIceThreshold < top.density c → a = c.albedoIce) := by
  obtain ⟨_, e2, top, rest, e3, e4, e5⟩ := oerlemans_ok h
  have hage : 0 ≤ g'.newSnowTimestamp := by
    rcases e2 with rfl | rfl
    · exact ht
    · exact ht'
  have hice : ∀ top' rest', g.nodes = top' :: rest' → c.snowIceThreshold < top'.density c → a = c.albedoIce := by
    intro top' rest' h'
    rw [e3] at h'
    cases h'
    exact e5
  rcases le_or_gt (top.density c) c.snowIceThreshold with hle | hgt
  · obtain ⟨hs, h1, rfl⟩ := e4 hle
    have hs0 : 0 ≤ hs := by
      rw [Grid.getTotalSnowheight_eq hw] at h1
      cases h1
      rw [pySum_eq]
      exact List.sum_nonneg (by simp only [List.mem_map]; rintro x ⟨n, hn, rfl⟩; exact hh n (List.mem_of_mem_take hn))
    have := oerlemansAlbedo_range ho hage hs0
    exact ⟨this.1, this.2, hice⟩
  · rw [e5 hgt]
    exact ⟨le_rfl, ho.ice_le.trans ho.firn_le, fun _ _ _ _ => rfl⟩

/-- **C29, ageing.** Of two calls on the same layers, the one that ends with the older snow returns no brighter
surface. -/
theorem C29_ages {c : Consts ℝ} (ho : c.AlbedoOrder) {g₁ g₂ g₁' g₂' : Grid ℝ} {a₁ a₂ : ℝ} (hw₁ : g₁.WF) (hw₂ : g₂.WF)
    (hsame : g₁.nodes = g₂.nodes) (hh : ∀ n ∈ g₁.nodes, 0 ≤ n.height)
    (h₁ : methodOerlemans c g₁ = .ok (g₁', a₁)) (h₂ : methodOerlemans c g₂ = .ok (g₂', a₂))
    (hage : g₁'.newSnowTimestamp ≤ g₂'.newSnowTimestamp) : a₂ ≤ a₁ := by
  obtain ⟨_, _, top, rest, e3, e4, e5⟩ := oerlemans_ok h₁
  obtain ⟨_, _, top', rest', f3, f4, f5⟩ := oerlemans_ok h₂
  rw [← hsame, e3] at f3
  cases f3
  rcases le_or_gt (top.density c) c.snowIceThreshold with hle | hgt
  · obtain ⟨hs, k1, rfl⟩ := e4 hle
    obtain ⟨hs', k2, rfl⟩ := f4 hle
    rw [Grid.getTotalSnowheight_eq hw₂, ← hsame] at k2
    rw [Grid.getTotalSnowheight_eq hw₁] at k1
    rw [k1] at k2
    cases k2
    cases k1
    have hs0 : 0 ≤ pySum ((g₁.nodes.take (Grid.nSnow c g₁.nodes)).map Node.height) := by
      rw [pySum_eq]
      exact List.sum_nonneg (by simp only [List.mem_map]; rintro x ⟨n, hn, rfl⟩; exact hh n (List.mem_of_mem_take hn))
    generalize pySum ((g₁.nodes.take (Grid.nSnow c g₁.nodes)).map Node.height) = hs at *
    unfold oerlemansAlbedo
    have h1 := ho.ice_le; have h2 := ho.firn_le; have h3 := ho.aging; have h4 := ho.depth
    have a2 : Real.exp (-hs / (c.albedoModSnowDepth / 100)) ≤ 1 := by
      rw [Real.exp_le_one_iff, neg_div]; have : 0 ≤ hs / (c.albedoModSnowDepth / 100) := by positivity
      linarith
    have a1 : Real.exp (-(g₂'.newSnowTimestamp / 3600) / (c.albedoModSnowAging * 24)) ≤
        Real.exp (-(g₁'.newSnowTimestamp / 3600) / (c.albedoModSnowAging * 24)) := by
      apply Real.exp_le_exp.2
      gcongr
    simp only
    generalize Real.exp (-(g₂'.newSnowTimestamp / 3600) / (c.albedoModSnowAging * 24)) = x at *
    generalize Real.exp (-(g₁'.newSnowTimestamp / 3600) / (c.albedoModSnowAging * 24)) = x' at *
    generalize Real.exp (-hs / (c.albedoModSnowDepth / 100)) = y at *
    have key : 0 ≤ (c.albedoFreshSnow - c.albedoFirn) * (x' - x) * (1 - y) := by
      apply mul_nonneg (mul_nonneg _ _) <;> linarith
    nlinarith
  · rw [e5 hgt, f5 hgt]

/-- **C29, depth.** Of two snow surfaces of the same age, the one on deeper snow is not darker. -/
theorem C29_depth {c : Consts ℝ} (ho : c.AlbedoOrder) {g₁ g₂ g₁' g₂' : Grid ℝ} {a₁ a₂ d₁ d₂ : ℝ} {top₁ top₂ : Node ℝ}
    {rest₁ rest₂ : List (Node ℝ)}
    (hn₁ : g₁.nodes = top₁ :: rest₁) (hn₂ : g₂.nodes = top₂ :: rest₂)
    (hs₁ : top₁.density c ≤ c.snowIceThreshold) (hs₂ : top₂.density c ≤ c.snowIceThreshold)
    (h₁ : methodOerlemans c g₁ = .ok (g₁', a₁)) (h₂ : methodOerlemans c g₂ = .ok (g₂', a₂))
    (hage : g₁'.newSnowTimestamp = g₂'.newSnowTimestamp) (hd₁ : g₁.getTotalSnowheight c = .ok d₁)
    (hd₂ : g₂.getTotalSnowheight c = .ok d₂) (hd : d₁ ≤ d₂) : a₁ ≤ a₂ := by
  obtain ⟨_, _, top, rest, e3, e4, e5⟩ := oerlemans_ok h₁
  obtain ⟨_, _, top', rest', f3, f4, f5⟩ := oerlemans_ok h₂
  rw [hn₁] at e3; cases e3
  rw [hn₂] at f3; cases f3
  obtain ⟨hs, k1, rfl⟩ := e4 hs₁
  obtain ⟨hs', k2, rfl⟩ := f4 hs₂
  rw [hd₁] at k1; cases k1
  rw [hd₂] at k2; cases k2
  rw [hage]
  unfold oerlemansAlbedo
  have h1 := ho.ice_le; have h2 := ho.firn_le; have h3 := ho.aging; have h4 := ho.depth
  have b1 := Real.exp_pos (-(g₂'.newSnowTimestamp / 3600) / (c.albedoModSnowAging * 24))
  have a1 : Real.exp (-d₂ / (c.albedoModSnowDepth / 100)) ≤ Real.exp (-d₁ / (c.albedoModSnowDepth / 100)) := by
    apply Real.exp_le_exp.2
    gcongr
  simp only
  generalize Real.exp (-(g₂'.newSnowTimestamp / 3600) / (c.albedoModSnowAging * 24)) = x at *
  generalize Real.exp (-d₂ / (c.albedoModSnowDepth / 100)) = y at *
  generalize Real.exp (-d₁ / (c.albedoModSnowDepth / 100)) = y' at *
  have s1 : c.albedoIce ≤ c.albedoFirn + (c.albedoFreshSnow - c.albedoFirn) * x := by nlinarith
  generalize c.albedoFirn + (c.albedoFreshSnow - c.albedoFirn) * x = s at *
  nlinarith [mul_nonneg (sub_nonneg.2 s1) (sub_nonneg.2 a1)]

/-- The method returns on every non-empty column. -/
theorem oerlemans_returns (c : Consts ℝ) {g : Grid ℝ} (hw : g.WF) (hne : g.nodes ≠ []) :
    ∃ r, methodOerlemans c g = .ok r := by
  obtain ⟨p1, p2, p3, p4⟩ := getSurfaceProperties_spec c g
  unfold methodOerlemans
  generalize getSurfaceProperties c g = p at *
  obtain ⟨g1, hours⟩ := p
  simp only at p1 p2
  have hw1 : g1.WF := by unfold Grid.WF; rw [p1, p2]; exact hw
  cases hn : g.nodes with
  | nil => exact absurd hn hne
  | cons t l =>
    have : g1.node 0 = .ok t := by unfold Grid.node; rw [p1, hn, pyGet_zero]
    simp only [this, ok_bind, Grid.getTotalSnowheight_eq hw1]
    split_ifs <;> exact ⟨_, rfl⟩

/-- Ten centimetres of snow on ice, two days old. -/
private noncomputable def exCol : Grid ℝ := ⟨[⟨1/10, 270, 0, 1/4, 0⟩, ⟨2, 270, 0, 1, 0⟩], 2, 1/100, 172800, 0⟩

example : (Consts.default ℝ).AlbedoOrder ∧ exCol.WF ∧ (∀ n ∈ exCol.nodes, 0 ≤ n.height) ∧
    ∃ r, methodOerlemans (Consts.default ℝ) exCol = .ok r := by
  refine ⟨Consts.default_albedo, rfl, ?_, oerlemans_returns _ (g := exCol) rfl (by simp [exCol])⟩
  intro n hn
  simp only [exCol, List.mem_cons, List.not_mem_nil, or_false] at hn
  rcases hn with rfl | rfl <;> norm_num

end Cosipy
