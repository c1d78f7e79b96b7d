import Verif.Lemmas.Closed
import Verif.Model.Refreezing
import Verif.Spec.Phys

/-! One layer of the refreezing loop. -/

set_option autoImplicit false
set_option linter.unusedSectionVars false

namespace Cosipy
section
variable {K : Type} [Field K] [LinearOrder K] [IsStrictOrderedRing K]

/-- Heat capacity of ice and water in a layer per volume. -/
def Node.heatCap (c : Consts K) (n : Node K) : K :=
  c.specHeatIce * c.iceDensity * n.iceFraction + c.specHeatWater * c.waterDensity * n.lwc

/-- A layer that is not refrozen. -/
theorem refreezeLayer_skip {c : Consts K} {n n' : Node K} {d : K} (hs : ¬ (n.temperature ≤ c.zeroTemperature ∧ 0 < n.lwc))
    (h : refreezeLayer c n = .ok (n', d)) : n' = { n with refreeze := 0 } ∧ d = 0 := by
  unfold refreezeLayer at h
  rw [if_neg hs, pure_eq_ok, Prod.mk.injEq] at h
  rw [← h.1, ← h.2]
  exact ⟨by simp [Node.setRefreeze], by simp⟩

/-- A layer that is refrozen. -/
theorem refreezeLayer_freeze {c : Consts K} {n n' : Node K} {d : K} (hs : n.temperature ≤ c.zeroTemperature ∧ 0 < n.lwc)
    (h : refreezeLayer c n = .ok (n', d)) :
    ∃ θ, refreezeAmount c n = .ok θ ∧ d = θ * n.height ∧ n'.height = n.height ∧ n'.lwc = n.lwc - θ ∧
      n'.iceFraction = n.iceFraction + (c.waterDensity / c.iceDensity) * θ ∧ n'.refreeze = θ * n.height ∧
      n'.heatCap c ≠ 0 ∧ n'.temperature = n.temperature + θ * (c.waterDensity * c.latHeatMelting) / n'.heatCap c ∧
      0 ≤ n'.temperature ∧ 0 ≤ n'.iceFraction ∧ n'.iceFraction ≤ 1 ∧ 0 ≤ n'.lwc ∧ n'.lwc ≤ 1 := by
  unfold refreezeLayer at h
  rw [if_pos hs] at h
  rw [bind_eq_ok] at h; obtain ⟨θ, hθ, h⟩ := h
  simp only [bind_eq_ok] at h
  obtain ⟨u, hu, dT, hdT, h⟩ := h
  rw [fdiv_eq_ok] at hdT
  split_ifs at h with hneg
  rw [pure_eq_ok, Prod.mk.injEq] at h
  obtain ⟨h1, h2⟩ := h
  unfold checkOob at hu
  split_ifs at hu with u1 u2
  subst h1
  refine ⟨θ, hθ, h2.symm, rfl, rfl, rfl, rfl, hdT.1, ?_, ?_, u1.1, u1.2, u2.1, u2.2⟩
  · show n.temperature + dT = _
    rw [hdT.2]; rfl
  · exact not_lt.1 hneg

/-- The four limits of the refrozen amount. -/
theorem refreezeAmount_ok {c : Consts K} {n : Node K} {θ : K} (h : refreezeAmount c n = .ok θ) :
    c.waterDensity * (c.latHeatMelting - (n.temperature - c.zeroTemperature) * (c.specHeatIce - c.specHeatWater)) ≠ 0 ∧
    θ = min (min (min n.lwc (max ((phiIceMax c - n.iceFraction) * (c.iceDensity / c.waterDensity)) 0))
      (-((n.temperature - c.zeroTemperature) * (n.iceFraction * (c.specHeatIce * c.iceDensity) +
          n.lwc * c.waterDensity * c.specHeatWater)) /
        (c.waterDensity * (c.latHeatMelting - (n.temperature - c.zeroTemperature) * (c.specHeatIce - c.specHeatWater)))))
      (-(c.specHeatIce * c.iceDensity * n.iceFraction * (n.temperature - c.zeroTemperature)) /
        (c.waterDensity * c.latHeatMelting)) := by
  unfold refreezeAmount at h
  simp only [bind_eq_ok] at h
  obtain ⟨cold, hc, h⟩ := h
  rw [fdiv_eq_ok] at hc
  rw [pure_eq_ok] at h
  refine ⟨hc.1, ?_⟩
  rw [← h, hc.2]
  simp only [pyMin_eq, pyMax_eq]

/-- Frozen amount of a valid layer: non-negative and within the limits. -/
theorem refreezeAmount_bounds {c : Consts K} (hc : c.Phys) {n : Node K} {θ : K} (hi : 0 ≤ n.iceFraction) (hw : 0 < n.lwc)
    (hT : n.temperature ≤ c.zeroTemperature)
    (hcold : (c.specHeatWater - c.specHeatIce) * (c.zeroTemperature - n.temperature) < c.latHeatMelting)
    (h : refreezeAmount c n = .ok θ) :
    0 ≤ θ ∧ θ ≤ n.lwc ∧ n.iceFraction + (c.waterDensity / c.iceDensity) * θ ≤ max (phiIceMax c) n.iceFraction ∧
      θ * (c.waterDensity * c.latHeatMelting) ≤
        c.specHeatIce * c.iceDensity * n.iceFraction * (c.zeroTemperature - n.temperature) := by
  obtain ⟨_, hθ⟩ := refreezeAmount_ok h
  have hwd := hc.water
  have hid := hc.ice
  have hL := hc.melt
  have hci := hc.cIce
  have hcw := hc.cW
  have hden : 0 < c.waterDensity *
      (c.latHeatMelting - (n.temperature - c.zeroTemperature) * (c.specHeatIce - c.specHeatWater)) := by
    apply mul_pos hwd
    have : (n.temperature - c.zeroTemperature) * (c.specHeatIce - c.specHeatWater) =
      (c.specHeatWater - c.specHeatIce) * (c.zeroTemperature - n.temperature) := by ring
    rw [this]; linarith
  refine ⟨?_, ?_, ?_, ?_⟩
  · rw [hθ]
    apply le_min (le_min (le_min hw.le (le_max_right _ _)) ?_) ?_
    · apply div_nonneg _ hden.le
      have h1 : 0 ≤ n.iceFraction * (c.specHeatIce * c.iceDensity) + n.lwc * c.waterDensity * c.specHeatWater := by positivity
      have h2 : 0 ≤ c.zeroTemperature - n.temperature := by linarith
      have := mul_nonneg h2 h1
      linarith
    · apply div_nonneg _ (by positivity)
      have h2 : 0 ≤ c.zeroTemperature - n.temperature := by linarith
      have : 0 ≤ c.specHeatIce * c.iceDensity * n.iceFraction * (c.zeroTemperature - n.temperature) := by positivity
      linarith
  · rw [hθ]; exact (min_le_left _ _).trans ((min_le_left _ _).trans (min_le_left _ _))
  · have h1 : θ ≤ max ((phiIceMax c - n.iceFraction) * (c.iceDensity / c.waterDensity)) 0 := by
      rw [hθ]; exact (min_le_left _ _).trans ((min_le_left _ _).trans (min_le_right _ _))
    have hr : 0 ≤ c.waterDensity / c.iceDensity := by positivity
    rcases le_max_iff.1 h1 with h2 | h2
    · apply le_max_of_le_left
      have := mul_le_mul_of_nonneg_left h2 hr
      have e : c.waterDensity / c.iceDensity * ((phiIceMax c - n.iceFraction) * (c.iceDensity / c.waterDensity)) =
        phiIceMax c - n.iceFraction := by field_simp
      linarith
    · apply le_max_of_le_right
      have := mul_le_mul_of_nonneg_left h2 hr
      linarith
  · have h1 := min_le_right (min (min n.lwc (max ((phiIceMax c - n.iceFraction) * (c.iceDensity / c.waterDensity)) 0))
      (-((n.temperature - c.zeroTemperature) * (n.iceFraction * (c.specHeatIce * c.iceDensity) +
          n.lwc * c.waterDensity * c.specHeatWater)) /
        (c.waterDensity * (c.latHeatMelting - (n.temperature - c.zeroTemperature) * (c.specHeatIce - c.specHeatWater)))))
      (-(c.specHeatIce * c.iceDensity * n.iceFraction * (n.temperature - c.zeroTemperature)) /
        (c.waterDensity * c.latHeatMelting))
    rw [← hθ, le_div_iff₀ (by positivity)] at h1
    linarith

theorem forall₂_imp_mem {α β : Type} {R S : α → β → Prop} {l₁ : List α} {l₂ : List β} (h : List.Forall₂ R l₁ l₂)
    (himp : ∀ a ∈ l₁, ∀ b, R a b → S a b) : List.Forall₂ S l₁ l₂ := by
  induction h with
  | nil => exact .nil
  | cons hab _ ih => exact .cons (himp _ (by simp) _ hab) (ih fun a ha b hr => himp a (by simp [ha]) b hr)

/-- The loop as a relation between the layers before and after. -/
theorem refreezeLayers_forall₂ {c : Consts K} : ∀ (ns : List (Node K)) {acc t : K} {ms : List (Node K)},
    refreezeLayers c acc ns = .ok (ms, t) →
    List.Forall₂ (fun n m => ∃ d, refreezeLayer c n = .ok (m, d)) ns ms ∧
      t = acc + columnSum (fun m => m.refreeze) ms := by
  intro ns
  induction ns with
  | nil => intro acc t ms h; rw [refreezeLayers] at h; cases h; exact ⟨.nil, by simp⟩
  | cons n ns ih =>
    intro acc t ms h
    rw [refreezeLayers, bind_eq_ok] at h
    obtain ⟨⟨n', d⟩, h1, h⟩ := h
    simp only [bind_eq_ok] at h
    obtain ⟨⟨ns', t'⟩, h2, h⟩ := h
    rw [pure_eq_ok] at h; cases h
    obtain ⟨i1, i2⟩ := ih h2
    refine ⟨.cons ⟨d, h1⟩ i1, ?_⟩
    have hd : d = n'.refreeze := by
      by_cases hs : n.temperature ≤ c.zeroTemperature ∧ 0 < n.lwc
      · obtain ⟨θ, _, e1, _, _, _, e2, _⟩ := refreezeLayer_freeze hs h1
        rw [e1, e2]
      · obtain ⟨e1, e2⟩ := refreezeLayer_skip hs h1
        rw [e1, e2]
    rw [i2, columnSum_cons, hd]; ring

theorem refreezing_ok {c : Consts K} {g g' : Grid K} {t : K} (h : refreezing c g = .ok (g', t)) :
    List.Forall₂ (fun n m => ∃ d, refreezeLayer c n = .ok (m, d)) g.nodes g'.nodes ∧
      t = columnSum (fun m => m.refreeze) g'.nodes ∧ g' = { g with nodes := g'.nodes } := by
  unfold refreezing at h
  rw [bind_eq_ok] at h; obtain ⟨⟨ns, t'⟩, h1, h⟩ := h
  rw [pure_eq_ok] at h; cases h
  obtain ⟨i1, i2⟩ := refreezeLayers_forall₂ _ h1
  exact ⟨i1, by rw [i2, zero_add], rfl⟩

end
end Cosipy
