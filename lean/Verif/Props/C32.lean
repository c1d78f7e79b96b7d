import Verif.Lemmas.Frame
import Verif.Lemmas.Arith
import Verif.Lemmas.Example
import Verif.Model.Real
import Verif.Spec.Phys

/-!
# C32 Precipitation is split without creating or losing water

For any elementary functions with `-1 ≤ tanh ≤ 1` (the real ones satisfy it, `tanh_bounds_real`). Amounts are in
millimetres water equivalent: a snowfall of `s` metres of density `ρ` is `s · ρ/ρ_w · 1000` mm.
-/

set_option autoImplicit false
set_option linter.unusedSectionVars false

namespace Cosipy
section
variable {K : Type} [Field K] [LinearOrder K] [IsStrictOrderedRing K] [Transc K]

/-- Millimetres water equivalent of `s` metres of snow of density `rho`. -/
def snowMm (c : Consts K) (rho s : K) : K := s * (rho / c.waterDensity) * 1000

/-- **C32, split.** From total precipitation, the snow part and the rain part add up to the total exactly and neither
is negative. -/
theorem C32_split {c : Consts K} (hc : c.Phys) (htanh : ∀ x : K, -1 ≤ Transc.tanh x ∧ Transc.tanh x ≤ 1)
    {f : Forcing K} {rho p : K} (hrho : 0 < rho) (hs : f.snowf = none) (hp : f.rrr = some p) (hp0 : 0 ≤ p) :
    ∃ snow rain, precipitation c f rho = .ok (snow, rain) ∧ snowMm c rho snow + rain = p ∧ 0 ≤ snow ∧ 0 ≤ rain := by
  have hw := hc.water
  have e1 : (1000.0 : K) = 1000 := by norm_num
  have e2 : (1.0 : K) = 1 := by norm_num
  unfold precipitation
  rw [hs, hp]
  simp only [e1]
  have hf : 0 ≤ snowFraction c f.t2 ∧ snowFraction c f.t2 ≤ 1 := by
    unfold snowFraction
    rw [e2]
    obtain ⟨a, b⟩ := htanh (((f.t2 - c.zeroTemperature) - c.centerSnowTransferFunction) * c.spreadSnowTransferFunction)
    generalize Transc.tanh (((f.t2 - c.zeroTemperature) - c.centerSnowTransferFunction) * c.spreadSnowTransferFunction) = y at *
    have e3 : (0.5 : K) = 1 / 2 := by norm_num
    rw [e3]
    constructor <;> linarith
  generalize snowFraction c f.t2 = φ at *
  have key : p / 1000 * (c.waterDensity / rho) * φ * (rho / c.waterDensity) * 1000 = p * φ := by field_simp
  refine ⟨_, _, rfl, ?_, ?_, ?_⟩
  · unfold snowMm; ring
  · have := hf.1; positivity
  · rw [key]
    nlinarith [hf.1, hf.2]

/-- **C32, thresholds.** In every time step driven by total precipitation, the recorded snowfall and rain are zero or at
least their detection limits, and what they lose together of the total is not negative and at most the two limits. -/
theorem C32_step {sv : Solvers K} {fuel : Nat} {c : Consts K} {r : RunCfg K} {s s' : SimState K} {f : Forcing K}
    {o : StepOut K} {p : K} (hc : c.Phys) (htanh : ∀ x : K, -1 ≤ Transc.tanh x ∧ Transc.tanh x ≤ 1)
    (hmin : 0 ≤ c.minimumSnowfall) (hconst : 0 < c.constantDensity) (hs : f.snowf = none) (hp : f.rrr = some p)
    (hp0 : 0 ≤ p) (h : step sv fuel c r s f = .ok (s', o)) :
    (o.snowfall = 0 ∨ c.minimumSnowfall ≤ o.snowfall) ∧
    (o.rain = 0 ∨ snowMm c o.densityFreshSnow c.minimumSnowfall ≤ o.rain) ∧
    0 ≤ o.snowfall ∧ 0 ≤ o.rain ∧
    snowMm c o.densityFreshSnow o.snowfall + o.rain ≤ p ∧
    p ≤ snowMm c o.densityFreshSnow o.snowfall + o.rain + 2 * snowMm c o.densityFreshSnow c.minimumSnowfall := by
  obtain ⟨st⟩ := step_stages h
  have hw := hc.water
  have e1 : (1000.0 : K) = 1000 := by norm_num
  have hrho : 0 < o.densityFreshSnow := by
    rw [st.rho]
    unfold freshSnowDensity
    split
    · exact hconst
    · rw [pyMax_eq]; exact lt_max_of_lt_right (by norm_num)
  obtain ⟨snow, rain, h1, h2, h3, h4⟩ := C32_split hc htanh hrho hs hp hp0
  have hsr := st.precip
  rw [h1] at hsr
  have hsr' := (ok_inj.1 hsr).symm
  have hk : 0 < o.densityFreshSnow / c.waterDensity * 1000 := by positivity
  have hS := st.snowfall
  have hR := st.rain
  rw [hsr'] at hS hR
  simp only [thresholdPrecip, e1] at hS hR
  unfold snowMm at *
  have hlim : 0 ≤ c.minimumSnowfall * (o.densityFreshSnow / c.waterDensity) * 1000 := by positivity
  have hsn : 0 ≤ snow * (o.densityFreshSnow / c.waterDensity) * 1000 := by positivity
  have hlt : snow < c.minimumSnowfall → snow * (o.densityFreshSnow / c.waterDensity) * 1000 ≤
      c.minimumSnowfall * (o.densityFreshSnow / c.waterDensity) * 1000 := by
    intro h; gcongr
  rw [hS, hR]
  split_ifs with a b b
  · have := hlt a
    refine ⟨Or.inl rfl, Or.inl rfl, le_rfl, le_rfl, ?_, ?_⟩ <;> simp only [zero_mul, zero_add] <;> linarith
  · have := hlt a
    refine ⟨Or.inl rfl, Or.inr (not_lt.1 b), le_rfl, h4, ?_, ?_⟩ <;> simp only [zero_mul, zero_add] <;> linarith
  · refine ⟨Or.inr (not_lt.1 a), Or.inl rfl, h3, le_rfl, ?_, ?_⟩ <;> linarith
  · refine ⟨Or.inr (not_lt.1 a), Or.inr (not_lt.1 b), h3, h4, ?_, ?_⟩ <;> linarith

/-- **C32, given snowfall.** When snowfall is an input as well, rain is the total minus the snowfall, and nothing stops
the snowfall from exceeding the total: then the rain before thresholding is negative. -/
theorem C32_given {c : Consts K} (hc : c.Phys) {f : Forcing K} {rho p snow : K} (hrho : 0 < rho)
    (hs : f.snowf = some snow) (hp : f.rrr = some p) :
    ∃ rain, precipitation c f rho = .ok (snow, rain) ∧ snowMm c rho snow + rain = p ∧
      (p < snowMm c rho snow → rain < 0 ∧ (0 ≤ c.minimumSnowfall → (thresholdPrecip c rho (snow, rain)).2 = 0)) := by
  have hw := hc.water
  have e1 : (1000.0 : K) = 1000 := by norm_num
  unfold precipitation
  rw [hs, hp]
  simp only [e1]
  refine ⟨_, rfl, by unfold snowMm; ring, fun h => ?_⟩
  unfold snowMm at h
  refine ⟨by linarith, fun hm => ?_⟩
  simp only [thresholdPrecip, e1]
  rw [if_pos]
  have : 0 ≤ c.minimumSnowfall * (rho / c.waterDensity) * 1000 := by positivity
  linarith

/-- **C32, missing precipitation.** Snowfall alone, or no precipitation at all, does not yield a time step: the first
raises TypeError, the second ValueError. -/
theorem C32_missing {sv : Solvers K} {fuel : Nat} {c : Consts K} {r : RunCfg K} {s : SimState K} {f : Forcing K}
    (hp : f.rrr = none) :
    raised (step sv fuel c r s f) = some (if f.snowf.isSome then .type else .value) := by
  unfold step precipitation
  rw [hp]
  cases f.snowf <;> rfl

end

/-- The real hyperbolic tangent satisfies the hypothesis. -/
theorem tanh_bounds_real (x : ℝ) : -1 ≤ Transc.tanh x ∧ Transc.tanh x ≤ 1 :=
  ⟨(Real.neg_one_lt_tanh x).le, (Real.tanh_lt_one x).le⟩

attribute [local instance] exTransc in
/-- The hypotheses of the step theorem are met by an hour with 10 mm of precipitation. -/
example : exConsts.Phys ∧ (∀ x : ℚ, -1 ≤ Transc.tanh x ∧ Transc.tanh x ≤ 1) ∧ 0 ≤ exConsts.minimumSnowfall ∧
    0 < exConsts.constantDensity ∧ exSnow.snowf = none ∧ exSnow.rrr = some 10 ∧
    raised (step exSolvers 40 exConsts exCfg (initState exConsts false exGrid) exSnow) = none := by
  refine ⟨by constructor <;> decide +kernel, fun _ => (by decide +kernel : (-1 : ℚ) ≤ 0 ∧ (0 : ℚ) ≤ 1), by decide +kernel, by decide +kernel, rfl, rfl,
    by decide +kernel⟩

end Cosipy
