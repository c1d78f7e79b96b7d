import Verif.Props.C19

/-!
# C20 Refreezing releases exactly the latent heat of the frozen water
-/

set_option autoImplicit false
set_option linter.unusedSectionVars false

namespace Cosipy
section
variable {K : Type} [Field K] [LinearOrder K] [IsStrictOrderedRing K]

/-- **C20** For every layer of every column: (heat capacity of the ice and water after freezing) × (temperature increase)
= latent heat of the liquid water that disappeared. -/
theorem C20_energy {c : Consts K} {g g' : Grid K} {t : K} (h : refreezing c g = .ok (g', t)) :
    List.Forall₂ (fun n m =>
      (c.specHeatIce * c.iceDensity * m.iceFraction + c.specHeatWater * c.waterDensity * m.lwc) *
        (m.temperature - n.temperature) = c.latHeatMelting * (c.waterDensity * (n.lwc - m.lwc))) g.nodes g'.nodes := by
  obtain ⟨h1, _, _⟩ := refreezing_ok h
  refine h1.imp fun n m ⟨d, hd⟩ => ?_
  by_cases hs : n.temperature ≤ c.zeroTemperature ∧ 0 < n.lwc
  · obtain ⟨θ, _, _, _, e3, _, _, e6, e7, _⟩ := refreezeLayer_freeze hs hd
    rw [e7, e3]
    unfold Node.heatCap at e6 ⊢
    rw [e3] at e6 ⊢
    field_simp
    ring
  · obtain ⟨e1, _⟩ := refreezeLayer_skip hs hd
    rw [e1]; ring

/-- **C20** A layer without liquid water, or warmer than melting point, only has its refreeze record set to zero. -/
theorem C20_skipped {c : Consts K} {n m : Node K} {d : K} (hs : n.lwc ≤ 0 ∨ c.zeroTemperature < n.temperature)
    (h : refreezeLayer c n = .ok (m, d)) : m = { n with refreeze := 0 } ∧ d = 0 := by
  refine refreezeLayer_skip ?_ h
  rintro ⟨h1, h2⟩
  rcases hs with hs | hs
  · exact absurd h2 (not_lt.2 hs)
  · exact absurd h1 (not_le.2 hs)

/-- **C20** A layer at melting point refreezes nothing. -/
theorem C20_at_melting {c : Consts K} (hc : c.Phys) {n m : Node K} {d : K} (hT : n.temperature = c.zeroTemperature)
    (hi : 0 ≤ n.iceFraction) (h : refreezeLayer c n = .ok (m, d)) : m = { n with refreeze := 0 } ∧ d = 0 := by
  by_cases hs : n.temperature ≤ c.zeroTemperature ∧ 0 < n.lwc
  · obtain ⟨θ, hθ, e1, e2, e3, e4, e5, e6, e7, _⟩ := refreezeLayer_freeze hs h
    have hb := refreezeAmount_bounds hc hi hs.2 hs.1 (by rw [hT]; simpa using hc.melt) hθ
    have h0 : θ = 0 := by
      apply le_antisymm _ hb.1
      have h3 := hb.2.2.2
      rw [hT, sub_self, mul_zero] at h3
      have hp : 0 < c.waterDensity * c.latHeatMelting := mul_pos hc.water hc.melt
      by_contra hcon
      exact absurd (mul_pos (not_le.1 hcon) hp) (not_lt.2 h3)
    subst h0
    refine ⟨?_, by rw [e1]; ring⟩
    rw [zero_mul, zero_div, add_zero] at e7
    rw [sub_zero] at e3
    rw [mul_zero, add_zero] at e4
    rw [zero_mul] at e5
    obtain ⟨mh, mt, ml, mi, mr⟩ := m
    simp only at e2 e3 e4 e5 e7
    rw [e2, e3, e4, e5, e7]
  · exact refreezeLayer_skip hs h

/-- The amount of water that would warm a layer exactly to melting point, solved from the energy balance in the
documentation (cosipy/modules/refreezing.py:63-71). -/
def coldContentLimit (c : Consts K) (n : Node K) : K :=
  (c.zeroTemperature - n.temperature) *
      (c.specHeatIce * c.iceDensity * n.iceFraction + c.specHeatWater * c.waterDensity * n.lwc) /
    (c.waterDensity * (c.latHeatMelting - (c.specHeatIce - c.specHeatWater) * (c.zeroTemperature - n.temperature)))

/-- The limit the code evaluates (cosipy/modules/refreezing.py:139-151), written without model helpers. -/
def codeColdLimit (c : Consts K) (n : Node K) : K :=
  (c.zeroTemperature - n.temperature) *
      (c.specHeatIce * c.iceDensity * n.iceFraction + c.specHeatWater * c.waterDensity * n.lwc) /
    (c.waterDensity * (c.latHeatMelting + (c.specHeatIce - c.specHeatWater) * (c.zeroTemperature - n.temperature)))

/-- `coldContentLimit` is the solution of the documented energy balance. -/
theorem C20_limit_balance {c : Consts K} (hc : c.Phys) {n : Node K} (hT : n.temperature ≤ c.zeroTemperature) :
    coldContentLimit c n * (c.waterDensity * c.latHeatMelting) = (c.zeroTemperature - n.temperature) *
      (c.specHeatIce * c.iceDensity * (n.iceFraction + c.waterDensity / c.iceDensity * coldContentLimit c n) +
        c.specHeatWater * c.waterDensity * (n.lwc - coldContentLimit c n)) := by
  have hwd := hc.water
  have hid := hc.ice.ne'
  have hden : c.waterDensity * (c.latHeatMelting - (c.specHeatIce - c.specHeatWater) * (c.zeroTemperature - n.temperature)) ≠ 0 := by
    apply (mul_pos hwd _).ne'
    have h1 : 0 ≤ (c.specHeatWater - c.specHeatIce) * (c.zeroTemperature - n.temperature) :=
      mul_nonneg (by linarith [hc.cWater]) (by linarith)
    have h2 := hc.melt
    linarith
  have key : coldContentLimit c n *
      (c.waterDensity * (c.latHeatMelting - (c.specHeatIce - c.specHeatWater) * (c.zeroTemperature - n.temperature))) =
      (c.zeroTemperature - n.temperature) *
      (c.specHeatIce * c.iceDensity * n.iceFraction + c.specHeatWater * c.waterDensity * n.lwc) := by
    unfold coldContentLimit; rw [div_mul_cancel₀ _ hden]
  have e : c.specHeatIce * c.iceDensity * (c.waterDensity / c.iceDensity * coldContentLimit c n) =
      c.specHeatIce * c.waterDensity * coldContentLimit c n := by field_simp
  rw [mul_add (c.specHeatIce * c.iceDensity), e]
  linear_combination key

/-- **C20** (disagreement with the documentation): for every wet layer below melting point the limit in the code is
larger than the amount that exhausts the cold content. -/
theorem C20_code_limit_too_large {c : Consts K} (hc : c.Phys) {n : Node K} (hv : ValidLayer c n) (hw : 0 < n.lwc)
    (hT : n.temperature < c.zeroTemperature) : coldContentLimit c n < codeColdLimit c n := by
  have hwd := hc.water
  have hid := hc.ice
  have hci := hc.cIce
  have hcw := hc.cW
  have hi0 := hv.ice0
  unfold coldContentLimit codeColdLimit
  have hpos : 0 < (c.specHeatWater - c.specHeatIce) * (c.zeroTemperature - n.temperature) :=
    mul_pos (by linarith [hc.cWater]) (by linarith)
  have hcold := hv.cold
  have hdT : 0 < c.zeroTemperature - n.temperature := by linarith
  apply div_lt_div_of_pos_left
  · positivity
  · apply mul_pos hwd; linarith
  · apply mul_lt_mul_of_pos_left _ hwd; linarith

/-- **C20** It has no effect: the amount that freezes is at most `(bulk limit)`, which is below both limits, so the
cold-content limit of the code is never the one that decides. -/
theorem C20_code_limit_inactive {c : Consts K} (hc : c.Phys) {n : Node K} {θ : K} (hv : ValidLayer c n) (hw : 0 < n.lwc)
    (hT : n.temperature ≤ c.zeroTemperature) (h : refreezeAmount c n = .ok θ) :
    θ = min (min n.lwc (max ((phiIceMax c - n.iceFraction) * (c.iceDensity / c.waterDensity)) 0))
      (c.specHeatIce * c.iceDensity * n.iceFraction * (c.zeroTemperature - n.temperature) /
        (c.waterDensity * c.latHeatMelting)) ∧ θ ≤ coldContentLimit c n := by
  obtain ⟨_, hθ⟩ := refreezeAmount_ok h
  have hwd := hc.water
  have hid := hc.ice
  have hci := hc.cIce
  have hcw := hc.cW
  have hi0 := hv.ice0
  have hL := hc.melt
  have hcold := hv.cold
  have hdT : 0 ≤ c.zeroTemperature - n.temperature := by linarith
  have hpos : 0 ≤ (c.specHeatWater - c.specHeatIce) * (c.zeroTemperature - n.temperature) :=
    mul_nonneg (by linarith [hc.cWater]) hdT
  have hle : -(c.specHeatIce * c.iceDensity * n.iceFraction * (n.temperature - c.zeroTemperature)) /
        (c.waterDensity * c.latHeatMelting) ≤
      (-((n.temperature - c.zeroTemperature) * (n.iceFraction * (c.specHeatIce * c.iceDensity) +
          n.lwc * c.waterDensity * c.specHeatWater)) /
        (c.waterDensity * (c.latHeatMelting - (n.temperature - c.zeroTemperature) * (c.specHeatIce - c.specHeatWater)))) := by
    have e : c.latHeatMelting - (n.temperature - c.zeroTemperature) * (c.specHeatIce - c.specHeatWater) =
      c.latHeatMelting - (c.specHeatWater - c.specHeatIce) * (c.zeroTemperature - n.temperature) := by ring
    rw [e]
    apply div_le_div₀
    · have : 0 ≤ (c.zeroTemperature - n.temperature) * (n.iceFraction * (c.specHeatIce * c.iceDensity) +
          n.lwc * c.waterDensity * c.specHeatWater) := by positivity
      linarith
    · have : 0 ≤ (c.zeroTemperature - n.temperature) * (n.lwc * c.waterDensity * c.specHeatWater) := by positivity
      linarith
    · apply mul_pos hwd; linarith
    · apply mul_le_mul_of_nonneg_left _ hwd.le; linarith
  have e1 : -(c.specHeatIce * c.iceDensity * n.iceFraction * (n.temperature - c.zeroTemperature)) =
      c.specHeatIce * c.iceDensity * n.iceFraction * (c.zeroTemperature - n.temperature) := by ring
  have hθ' : θ = min (min n.lwc (max ((phiIceMax c - n.iceFraction) * (c.iceDensity / c.waterDensity)) 0))
      (c.specHeatIce * c.iceDensity * n.iceFraction * (c.zeroTemperature - n.temperature) /
        (c.waterDensity * c.latHeatMelting)) := by
    rw [hθ, min_assoc, min_eq_right hle, e1]
  refine ⟨hθ', ?_⟩
  -- the amount satisfies the energy inequality of C19, hence is below the exact limit
  obtain ⟨b0, b1, _, b3⟩ := refreezeAmount_bounds hc hi0 hw hT hcold h
  have hden : 0 < c.waterDensity * (c.latHeatMelting - (c.specHeatIce - c.specHeatWater) * (c.zeroTemperature - n.temperature)) := by
    apply mul_pos hwd; linarith
  unfold coldContentLimit
  rw [le_div_iff₀ hden]
  have h1 : 0 ≤ (c.zeroTemperature - n.temperature) * (c.waterDensity * (c.specHeatWater * (n.lwc - θ) + c.specHeatIce * θ)) := by
    have : 0 ≤ n.lwc - θ := by linarith
    positivity
  linarith

end

private def exLayer : Node ℚ := ⟨1/10, 200, 1/10, 1/2, 0⟩

/-! Non-vacuity: a wet layer at 200 K. -/
example : ValidLayer (Consts.default ℚ) exLayer ∧ 0 < exLayer.lwc ∧ exLayer.temperature < (Consts.default ℚ).zeroTemperature ∧
    (refreezeAmount (Consts.default ℚ) exLayer).isOk := by
  refine ⟨⟨?_, ?_, ?_, ?_, ?_, ?_⟩, ?_, ?_, ?_⟩ <;> decide +kernel
example : (refreezeLayer (Consts.default ℚ) ⟨1/10, 273.16, 1/10, 1/2, 0⟩).isOk := by decide +kernel

end Cosipy
