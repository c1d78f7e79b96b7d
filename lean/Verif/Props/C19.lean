import Verif.Lemmas.Refreeze
import Mathlib.Algebra.Field.Rat
import Mathlib.Algebra.Order.Ring.Unbundled.Rat

/-!
# C19 Refreezing never overheats, cools or over-densifies a layer and never fails on valid input
-/

set_option autoImplicit false
set_option linter.unusedSectionVars false

namespace Cosipy
section
variable {K : Type} [Field K] [LinearOrder K] [IsStrictOrderedRing K]

/-- A valid layer: fractions in [0,1], non-negative temperature, and not colder than about 119 K
(`zero_temperature - L/(c_w - c_i)`). -/
structure ValidLayer (c : Consts K) (n : Node K) : Prop where
  ice0 : 0 ≤ n.iceFraction
  ice1 : n.iceFraction ≤ 1
  lwc0 : 0 ≤ n.lwc
  lwc1 : n.lwc ≤ 1
  temp : 0 ≤ n.temperature
  cold : (c.specHeatWater - c.specHeatIce) * (c.zeroTemperature - n.temperature) < c.latHeatMelting

/-- Density of the ice and air of a layer, without its liquid water. -/
def Node.dryDensity (c : Consts K) (n : Node K) : K := n.iceFraction * c.iceDensity + (1 - n.iceFraction) * c.airDensity

theorem phiIceMax_le_one {c : Consts K} (hc : c.Phys) : phiIceMax c ≤ 1 := by
  unfold phiIceMax
  have h1 := hc.air_lt
  have h2 := hc.thr_le
  rw [div_le_one (by linarith)]
  linarith

/-- Heat capacity after freezing is positive. -/
theorem heatCap_pos {c : Consts K} (hc : c.Phys) {n : Node K} (hv : ValidLayer c n)
    (hs : n.temperature ≤ c.zeroTemperature ∧ 0 < n.lwc) {θ : K} (hθ : refreezeAmount c n = .ok θ) :
    0 < c.specHeatIce * c.iceDensity * (n.iceFraction + c.waterDensity / c.iceDensity * θ) +
      c.specHeatWater * c.waterDensity * (n.lwc - θ) := by
  obtain ⟨b0, b1, _, b3⟩ := refreezeAmount_bounds hc hv.ice0 hs.2 hs.1 hv.cold hθ
  have hwd := hc.water
  have hid := hc.ice
  have hL := hc.melt
  have hci := hc.cIce
  have hcw := hc.cW
  have hi0 := hv.ice0
  rcases b0.eq_or_lt with h0 | hpos
  · rw [← h0]
    have hl := hs.2
    have : 0 < c.specHeatWater * c.waterDensity * (n.lwc - 0) := by rw [sub_zero]; positivity
    have : 0 ≤ c.specHeatIce * c.iceDensity * (n.iceFraction + c.waterDensity / c.iceDensity * 0) := by
      rw [mul_zero, add_zero]; positivity
    linarith
  · have h1 : 0 < c.specHeatIce * c.iceDensity * (n.iceFraction + c.waterDensity / c.iceDensity * θ) := by positivity
    have h2 : 0 ≤ c.specHeatWater * c.waterDensity * (n.lwc - θ) := by
      have : 0 ≤ n.lwc - θ := by linarith
      positivity
    linarith

/-- **C19** For a valid layer the loop body never raises. -/
theorem C19_layer_returns {c : Consts K} (hc : c.Phys) {n : Node K} (hv : ValidLayer c n) :
    ∃ r, refreezeLayer c n = .ok r := by
  unfold refreezeLayer
  by_cases hs : n.temperature ≤ c.zeroTemperature ∧ 0 < n.lwc
  swap
  · rw [if_neg hs]; exact ⟨_, rfl⟩
  rw [if_pos hs]
  have hwd := hc.water
  have hid := hc.ice
  have hden : c.waterDensity *
      (c.latHeatMelting - (n.temperature - c.zeroTemperature) * (c.specHeatIce - c.specHeatWater)) ≠ 0 := by
    have : (n.temperature - c.zeroTemperature) * (c.specHeatIce - c.specHeatWater) =
      (c.specHeatWater - c.specHeatIce) * (c.zeroTemperature - n.temperature) := by ring
    rw [this]
    exact (mul_pos hwd (by linarith [hv.cold])).ne'
  obtain ⟨θ, hθ⟩ : ∃ θ, refreezeAmount c n = .ok θ := by
    unfold refreezeAmount
    simp only
    rw [fdiv_of_ne hden]; exact ⟨_, rfl⟩
  obtain ⟨b0, b1, b2, b3⟩ := refreezeAmount_bounds hc hv.ice0 hs.2 hs.1 hv.cold hθ
  rw [hθ, ok_bind]
  have hr : 0 ≤ c.waterDensity / c.iceDensity := by positivity
  have hoob : checkOob (n.iceFraction + c.waterDensity / c.iceDensity * θ) (n.lwc - θ) = .ok () := by
    unfold checkOob
    have h1 : 0 ≤ n.iceFraction + c.waterDensity / c.iceDensity * θ := add_nonneg hv.ice0 (mul_nonneg hr b0)
    have h2 : n.iceFraction + c.waterDensity / c.iceDensity * θ ≤ 1 := b2.trans (max_le (phiIceMax_le_one hc) hv.ice1)
    have h3 : 0 ≤ n.lwc - θ := by linarith
    have h4 : n.lwc - θ ≤ 1 := by linarith [hv.lwc1]
    rw [if_neg (not_not.2 ⟨h1, h2⟩), if_neg (not_not.2 ⟨h3, h4⟩)]
  have hcap := heatCap_pos hc hv hs hθ
  simp only
  rw [hoob, ok_bind]
  simp only [Node.setLwc, Node.setIceFraction]
  rw [fdiv_of_ne hcap.ne', ok_bind]
  have hL := hc.melt
  have : 0 ≤ n.temperature + θ * (c.waterDensity * c.latHeatMelting) /
      (c.specHeatIce * c.iceDensity * (n.iceFraction + c.waterDensity / c.iceDensity * θ) +
      c.specHeatWater * c.waterDensity * (n.lwc - θ)) :=
    add_nonneg hv.temp (div_nonneg (by positivity) hcap.le)
  rw [if_neg (not_lt.2 this)]
  exact ⟨_, rfl⟩

/-- **C19** On every column of valid layers refreezing returns normally. -/
theorem C19_returns {c : Consts K} (hc : c.Phys) {g : Grid K} (hv : ∀ n ∈ g.nodes, ValidLayer c n) :
    ∃ r, refreezing c g = .ok r := by
  have : ∀ (ns : List (Node K)) (acc : K), (∀ n ∈ ns, ValidLayer c n) → ∃ r, refreezeLayers c acc ns = .ok r := by
    intro ns
    induction ns with
    | nil => intro acc _; exact ⟨_, rfl⟩
    | cons n ns ih =>
      intro acc hv
      obtain ⟨⟨n', d⟩, h1⟩ := C19_layer_returns hc (hv n (by simp))
      obtain ⟨⟨ns', t⟩, h2⟩ := ih (acc + d) (fun m hm => hv m (by simp [hm]))
      rw [refreezeLayers, h1, ok_bind]
      simp only
      rw [h2]
      exact ⟨_, rfl⟩
  obtain ⟨⟨ns, t⟩, h⟩ := this g.nodes 0 hv
  unfold refreezing
  rw [h]
  exact ⟨_, rfl⟩

/-- Effect on one valid layer. -/
theorem C19_layer {c : Consts K} (hc : c.Phys) {n m : Node K} {d : K} (hv : ValidLayer c n)
    (h : refreezeLayer c n = .ok (m, d)) :
    n.temperature ≤ m.temperature ∧ (n.temperature ≤ c.zeroTemperature → m.temperature ≤ c.zeroTemperature) ∧
    m.lwc ≤ n.lwc ∧ n.iceFraction ≤ m.iceFraction ∧ 0 ≤ m.refreeze * n.height ∧ ValidLayer c m ∧
    m.dryDensity c ≤ max c.snowIceThreshold (n.dryDensity c) := by
  have hair := hc.air_lt
  have hthr := hc.thr_le
  have hwd := hc.water
  have hid := hc.ice
  have hL := hc.melt
  have hci := hc.cIce
  have hcw := hc.cW
  have hi0 := hv.ice0
  by_cases hs : n.temperature ≤ c.zeroTemperature ∧ 0 < n.lwc
  swap
  · obtain ⟨rfl, _⟩ := refreezeLayer_skip hs h
    exact ⟨le_rfl, id, le_rfl, le_rfl, by simp, ⟨hv.1, hv.2, hv.3, hv.4, hv.5, hv.6⟩, le_max_right _ _⟩
  obtain ⟨θ, hθ, e1, e2, e3, e4, e5, e6, e7, o1, o2, o3, o4, o5⟩ := refreezeLayer_freeze hs h
  obtain ⟨b0, b1, b2, b3⟩ := refreezeAmount_bounds hc hv.ice0 hs.2 hs.1 hv.cold hθ
  have hcap : 0 < m.heatCap c := by
    have := heatCap_pos hc hv hs hθ
    unfold Node.heatCap; rw [e3, e4]; exact this
  have hr : 0 ≤ c.waterDensity / c.iceDensity := by positivity
  have hmono : n.temperature ≤ m.temperature := by
    rw [e7]
    have : 0 ≤ θ * (c.waterDensity * c.latHeatMelting) / m.heatCap c := by positivity
    linarith
  have hice : n.iceFraction ≤ m.iceFraction := by rw [e4]; linarith [mul_nonneg hr b0]
  refine ⟨hmono, fun _ => ?_, by rw [e3]; linarith, hice, ?_, ⟨o2, o3, o4, o5, o1, ?_⟩, ?_⟩
  · have hle : θ * (c.waterDensity * c.latHeatMelting) ≤ m.heatCap c * (c.zeroTemperature - n.temperature) := by
      refine b3.trans (mul_le_mul_of_nonneg_right ?_ (by linarith [hs.1]))
      unfold Node.heatCap
      have h1 : c.specHeatIce * c.iceDensity * n.iceFraction ≤ c.specHeatIce * c.iceDensity * m.iceFraction :=
        mul_le_mul_of_nonneg_left hice (by positivity)
      have h2 : 0 ≤ c.specHeatWater * c.waterDensity * m.lwc := by positivity
      linarith
    have : θ * (c.waterDensity * c.latHeatMelting) / m.heatCap c ≤ c.zeroTemperature - n.temperature := by
      rw [div_le_iff₀ hcap]; linarith
    rw [e7]; linarith
  · rw [e5]
    have : θ * n.height * n.height = θ * (n.height * n.height) := by ring
    rw [this]; exact mul_nonneg b0 (mul_self_nonneg _)
  · refine lt_of_le_of_lt (mul_le_mul_of_nonneg_left ?_ (by linarith [hc.cWater])) hv.cold
    linarith
  · have hlin : ∀ x : K, x * c.iceDensity + (1 - x) * c.airDensity = c.airDensity + x * (c.iceDensity - c.airDensity) := by
      intro x; ring
    have hpos : 0 < c.iceDensity - c.airDensity := by linarith
    unfold Node.dryDensity
    rw [hlin, hlin]
    rw [← e4] at b2
    rcases le_max_iff.1 b2 with b2 | b2
    · apply le_max_of_le_left
      have := mul_le_mul_of_nonneg_right b2 hpos.le
      unfold phiIceMax at this
      rw [div_mul_cancel₀ _ hpos.ne'] at this
      linarith
    · apply le_max_of_le_right
      linarith [mul_le_mul_of_nonneg_right b2 hpos.le]

/-- **C19** For every column of valid layers: no layer is cooled, a layer at or below melting point stays there, liquid
water never grows, ice never shrinks, fractions stay in [0,1], and no layer's dry density rises above the snow/ice
threshold. -/
theorem C19_effect {c : Consts K} (hc : c.Phys) {g g' : Grid K} {t : K} (hv : ∀ n ∈ g.nodes, ValidLayer c n)
    (h : refreezing c g = .ok (g', t)) :
    List.Forall₂ (fun n m => n.temperature ≤ m.temperature ∧
      (n.temperature ≤ c.zeroTemperature → m.temperature ≤ c.zeroTemperature) ∧ m.lwc ≤ n.lwc ∧
      n.iceFraction ≤ m.iceFraction ∧ (0 ≤ m.iceFraction ∧ m.iceFraction ≤ 1 ∧ 0 ≤ m.lwc ∧ m.lwc ≤ 1) ∧
      m.dryDensity c ≤ max c.snowIceThreshold (n.dryDensity c)) g.nodes g'.nodes := by
  refine forall₂_imp_mem (refreezing_ok h).1 fun n hn m ⟨d, hd⟩ => ?_
  obtain ⟨a1, a2, a3, a4, _, a6, a7⟩ := C19_layer hc (hv n hn) hd
  exact ⟨a1, a2, a3, a4, ⟨a6.1, a6.2, a6.3, a6.4⟩, a7⟩

end

private def exCol : Grid ℚ :=
  ⟨[⟨1/10, 270, 1/100, 3/10, 0⟩, ⟨1/10, 200, 1/10, 1/2, 0⟩, ⟨1, 270, 0, 1, 0⟩], 3, 1/10, 0, 0⟩

/-! Non-vacuity: valid layers down to 200 K, two of them refreeze. -/
example : (Consts.default ℚ).Phys ∧ ∀ n ∈ exCol.nodes, ValidLayer (Consts.default ℚ) n := by
  refine ⟨Consts.default_phys, ?_⟩
  intro n hn
  simp only [exCol, List.mem_cons, List.not_mem_nil, or_false] at hn
  rcases hn with rfl | rfl | rfl <;> constructor <;> norm_num [Consts.default]
example : (refreezing (Consts.default ℚ) exCol).toOption.map (fun r => r.1.nodes.map fun n => decide (0 < n.refreeze)) =
    some [true, true, false] := by decide +kernel

end Cosipy
