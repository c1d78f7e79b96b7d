import Verif.Model.Albedo
import Verif.Lemmas.Grid
import Verif.Lemmas.Arith
import Verif.Spec.Column
import Verif.Spec.Phys

/-!
# C31 Roughness length is bounded and non-decreasing with snow age
-/

set_option autoImplicit false
set_option linter.unusedSectionVars false

namespace Cosipy
section
variable {K : Type} [Field K] [LinearOrder K] [IsStrictOrderedRing K]

theorem roughness_ok {c : Consts K} {g : Grid K} {z : K} (h : updateRoughness c g = .ok z) :
    ∃ top rest, g.nodes = top :: rest ∧
      (top.density c ≤ c.snowIceThreshold → z = min (c.roughnessFreshSnow + c.agingFactorRoughness *
        (g.newSnowTimestamp / 3600)) c.roughnessFirn / 1000) ∧
      (c.snowIceThreshold < top.density c → z = c.roughnessIce / 1000) := by
  have e : (3600.0 : K) = 3600 := by norm_num
  unfold updateRoughness at h
  split at h
  · unfold methodMoelg at h
    simp only [bind_eq_ok, e] at h
    obtain ⟨top, htop, h⟩ := h
    rw [pure_eq_ok] at h
    have hcons : ∃ rest, g.nodes = top :: rest := by
      unfold Grid.node at htop
      cases hn : g.nodes with
      | nil => rw [hn] at htop; cases htop
      | cons a l => rw [hn, pyGet_zero] at htop; cases htop; exact ⟨l, rfl⟩
    obtain ⟨rest, hcons⟩ := hcons
    refine ⟨top, rest, hcons, fun hd => ?_, fun hd => ?_⟩
    · rw [if_pos hd, pyMin_eq] at h; exact h.symm
    · rw [if_neg (not_le.2 hd)] at h; exact h.symm
  · cases h

/-- **C31, range.** A snow surface has a roughness length between those of fresh snow and of firn, an ice surface that
of ice; the constants are in millimetres, the result in metres. -/
theorem C31_range {c : Consts K} (ho : c.RoughnessOrder) {g : Grid K} {z : K} {top : Node K} {rest : List (Node K)}
    (hn : g.nodes = top :: rest) (ht : 0 ≤ g.newSnowTimestamp) (h : updateRoughness c g = .ok z) :
    (top.density c ≤ c.snowIceThreshold → c.roughnessFreshSnow / 1000 ≤ z ∧ z ≤ c.roughnessFirn / 1000) ∧
    (c.snowIceThreshold < top.density c → z = c.roughnessIce / 1000) := by
  obtain ⟨top', rest', h1, h2, h3⟩ := roughness_ok h
  rw [hn] at h1
  cases h1
  refine ⟨fun hd => ?_, h3⟩
  rw [h2 hd]
  have := ho.fresh_le
  have := ho.aging
  constructor
  · gcongr
    apply le_min
    · have : 0 ≤ c.agingFactorRoughness * (g.newSnowTimestamp / 3600) := by positivity
      linarith
    · assumption
  · gcongr
    exact min_le_right _ _

/-- **C31, ageing.** On the same layers, older snow has no smaller roughness length; the fresh-snow value is met at age
zero. -/
theorem C31_ages {c : Consts K} (ho : c.RoughnessOrder) {g₁ g₂ : Grid K} {z₁ z₂ : K} (hsame : g₁.nodes = g₂.nodes)
    (hage : g₁.newSnowTimestamp ≤ g₂.newSnowTimestamp) (h₁ : updateRoughness c g₁ = .ok z₁)
    (h₂ : updateRoughness c g₂ = .ok z₂) : z₁ ≤ z₂ := by
  obtain ⟨top, rest, a1, a2, a3⟩ := roughness_ok h₁
  obtain ⟨top', rest', b1, b2, b3⟩ := roughness_ok h₂
  rw [← hsame, a1] at b1
  cases b1
  have := ho.aging
  rcases le_or_gt (top.density c) c.snowIceThreshold with hd | hd
  · rw [a2 hd, b2 hd]
    gcongr
  · rw [a3 hd, b3 hd]

/-- **C31, growth rate.** While below the firn value, the roughness length of snow of age `t` seconds is exactly
fresh-snow value plus ageing factor times hours. -/
theorem C31_linear {c : Consts K} {g : Grid K} {z : K} {top : Node K} {rest : List (Node K)}
    (hn : g.nodes = top :: rest) (hd : top.density c ≤ c.snowIceThreshold) (h : updateRoughness c g = .ok z)
    (hlt : z < c.roughnessFirn / 1000) :
    1000 * z = c.roughnessFreshSnow + c.agingFactorRoughness * (g.newSnowTimestamp / 3600) := by
  obtain ⟨top', rest', h1, h2, h3⟩ := roughness_ok h
  rw [hn] at h1
  cases h1
  rw [h2 hd] at hlt ⊢
  rcases min_choice (c.roughnessFreshSnow + c.agingFactorRoughness * (g.newSnowTimestamp / 3600)) c.roughnessFirn with hm | hm
  · rw [hm]; field_simp
  · rw [hm] at hlt; exact absurd hlt (lt_irrefl _)

/-- The call returns on every non-empty column (with the only implemented method). -/
theorem C31_returns {c : Consts K} {g : Grid K} (hne : g.nodes ≠ []) (hm : c.roughnessMethod = .moelg12) :
    ∃ z, updateRoughness c g = .ok z := by
  unfold updateRoughness
  rw [hm]
  unfold methodMoelg
  cases hn : g.nodes with
  | nil => exact absurd hn hne
  | cons t l =>
    have : g.node 0 = .ok t := by unfold Grid.node; rw [hn, pyGet_zero]
    simp only [this, ok_bind]
    exact ⟨_, rfl⟩

example : (Consts.default K).RoughnessOrder ∧ (Consts.default K).roughnessMethod = .moelg12 ∧
    (⟨1/10, 270, 0, 1/4, 0⟩ : Node K).density (Consts.default K) ≤ (Consts.default K).snowIceThreshold := by
  refine ⟨Consts.default_roughness, rfl, ?_⟩
  unfold Node.density Node.airPorosity; rw [pyMax_eq]; norm_num [Consts.default]

end
end Cosipy
