import Verif.Model.SurfaceTemp
import Verif.Model.Real
import Verif.Lemmas.Grid
import Verif.Lemmas.Arith
import Verif.Spec.Phys
import Mathlib.Analysis.Real.Pi.Bounds

/-!
# C35 Turbulent fluxes vanish in calm or very stable air and follow the gradient

Over the real numbers, Richardson-number scheme (the shipped setting).
-/

set_option autoImplicit false
set_option linter.unusedSectionVars false

namespace Cosipy

theorem riPhi_eq (ri : ℝ) : riPhi ri = if 0.01 < ri ∧ ri ≤ 0.2 then (1 - 5 * ri) ^ 2 else if 0.2 < ri then 0 else 1 := by
  unfold riPhi
  have : ∀ x : ℝ, Transc.pow x 2 = x ^ 2 := fun x => Real.rpow_two x
  simp only [this]

/-- **C35, damping factor.** The stability factor lies between zero and one and is zero for Richardson numbers above
0.2. -/
theorem C35_factor (ri : ℝ) : 0 ≤ riPhi ri ∧ riPhi ri ≤ 1 ∧ (0.2 < ri → riPhi ri = 0) ∧ (ri ≤ 0.01 → riPhi ri = 1) := by
  rw [riPhi_eq]
  split_ifs with h1 h2
  · refine ⟨sq_nonneg _, ?_, fun h => absurd h (not_lt.2 h1.2), fun h => absurd h1.1 (not_lt.2 h)⟩
    obtain ⟨a, b⟩ := h1
    norm_num at a b
    nlinarith
  · exact ⟨le_rfl, zero_le_one, fun _ => rfl, fun h => by norm_num at h h2; linarith⟩
  · exact ⟨zero_le_one, le_rfl, fun h => absurd h h2, fun _ => rfl⟩

/-- **C35, discontinuity.** The factor jumps down by almost a tenth at 0.01: it is one there, and below 0.9025 for every
larger Richardson number. -/
theorem C35_jump : riPhi (0.01 : ℝ) = 1 ∧ ∀ ri : ℝ, 0.01 < ri → riPhi ri < 0.9025 := by
  refine ⟨(C35_factor 0.01).2.2.2 le_rfl, fun ri h => ?_⟩
  rw [riPhi_eq]
  split_ifs with h1 h2
  · obtain ⟨a, b⟩ := h1
    norm_num at a b ⊢
    nlinarith
  · norm_num
  · exact absurd ⟨h, not_lt.1 h2⟩ h1

/-- The factor does not increase with stability. -/
theorem C35_factor_antitone {a b : ℝ} (h : a ≤ b) : riPhi b ≤ riPhi a := by
  rcases le_or_gt a 0.01 with ha | ha
  · rw [(C35_factor a).2.2.2 ha]; exact (C35_factor b).2.1
  · rcases le_or_gt b 0.2 with hb | hb
    · rw [riPhi_eq, riPhi_eq, if_pos ⟨ha.trans_le h, hb⟩, if_pos ⟨ha, h.trans hb⟩]
      norm_num at ha hb
      nlinarith
    · rw [(C35_factor b).2.2.1 hb]; exact (C35_factor a).1

/-- What the routine returns under the Richardson scheme. -/
theorem ri_fluxes {c : Consts ℝ} (hm : c.stabilityCorrection = .ri) {wrf : Bool} {g : Grid ℝ} {i : EbInput ℝ} {t0 : ℝ}
    {fl : Fluxes ℝ} (h : ebFluxes c wrf g i t0 = .ok fl) :
    fl.h = riPhi (bulkRi i t0) * (fl.rho * c.specHeatAir * fl.csT * i.u2 * (i.t2 - t0) * Real.cos (i.slope * Real.pi / 180)) ∧
    fl.le = riPhi (bulkRi i t0) * (fl.rho * fl.lv * fl.csQ * i.u2 * (fl.q2 - fl.q0) * Real.cos (i.slope * Real.pi / 180)) ∧
    fl.csT = Transc.pow 0.41 2 / (Real.log (i.z / i.z0) * Real.log (i.z / (i.z0 / 100))) ∧
    fl.csQ = Transc.pow 0.41 2 / (Real.log (i.z / i.z0) * Real.log (i.z / (i.z0 / 10))) ∧
    fl.q2 = i.rh2 * 0.622 * (methodEWSonntag i.t2 / (i.p - methodEWSonntag i.t2)) / 100 ∧
    fl.rho = i.p * 100 / (287.058 * (i.t2 * (1 + 0.608 * fl.q2))) ∧
    fl.lv = if c.zeroTemperature ≤ t0 then c.latHeatVaporize else c.latHeatSublimation := by
  unfold ebFluxes at h
  simp only [bind_eq_ok, hm] at h
  obtain ⟨li, _, ⟨hh, le, mol, csT, csQ⟩, he, top, _, lam, _, h⟩ := h
  rw [pure_eq_ok] at h
  cases he
  cases h
  exact ⟨rfl, rfl, rfl, rfl, rfl, rfl, rfl⟩

/-- **C35, no exchange.** Without wind, or when the bulk Richardson number exceeds 0.2, both turbulent fluxes vanish. -/
theorem C35_vanish {c : Consts ℝ} (hm : c.stabilityCorrection = .ri) {wrf : Bool} {g : Grid ℝ} {i : EbInput ℝ} {t0 : ℝ}
    {fl : Fluxes ℝ} (h : ebFluxes c wrf g i t0 = .ok fl)
    (hcase : i.u2 = 0 ∨ 0.2 < 9.81 * (i.t2 - t0) * i.z / (i.t2 * i.u2 ^ 2)) : fl.h = 0 ∧ fl.le = 0 := by
  obtain ⟨h1, h2, _⟩ := ri_fluxes hm h
  rcases hcase with hu | hri
  · rw [h1, h2, hu]; simp
  · have hb : 0.2 < bulkRi i t0 := by
      unfold bulkRi
      by_cases hu : i.u2 = 0
      · rw [hu] at hri; norm_num at hri
      · have : (i.u2 == 0) = false := by simpa using hu
        have e : Transc.pow i.u2 2 = i.u2 ^ 2 := Real.rpow_two _
        rw [this, e]
        exact hri
    rw [h1, h2, (C35_factor _).2.2.1 hb]; simp

/-- Measurements that make sense: wind not negative, air warmer than 0 K, humidity not negative, pressure above the
saturation vapour pressure, measuring height above the roughness length, slope within ±90 degrees. -/
structure SaneInput (i : EbInput ℝ) : Prop where
  wind : 0 ≤ i.u2
  air : 0 < i.t2
  hum : 0 ≤ i.rh2
  pres : methodEWSonntag i.t2 < i.p
  z0 : 0 < i.z0
  z : i.z0 < i.z
  slope : -90 ≤ i.slope ∧ i.slope ≤ 90

theorem ew_pos (t : ℝ) : 0 < methodEWSonntag t := by
  unfold methodEWSonntag
  split_ifs
  · exact mul_pos (by norm_num) (Real.exp_pos _)
  · exact mul_pos (by norm_num) (Real.exp_pos _)

/-- **C35, direction.** The sensible heat flux is directed along the temperature difference, the latent heat flux along
the difference of mixing ratios. -/
theorem C35_direction {c : Consts ℝ} (hc : c.Phys) (hm : c.stabilityCorrection = .ri) {wrf : Bool} {g : Grid ℝ}
    {i : EbInput ℝ} (hi : SaneInput i) {t0 : ℝ} {fl : Fluxes ℝ} (h : ebFluxes c wrf g i t0 = .ok fl) :
    (t0 ≤ i.t2 → 0 ≤ fl.h) ∧ (i.t2 ≤ t0 → fl.h ≤ 0) ∧ (fl.q0 ≤ fl.q2 → 0 ≤ fl.le) ∧ (fl.q2 ≤ fl.q0 → fl.le ≤ 0) := by
  obtain ⟨h1, h2, h3, h4, h5, h6, h7⟩ := ri_fluxes hm h
  have ew := ew_pos i.t2
  have hp := hi.pres
  have hq2 : 0 ≤ fl.q2 := by
    rw [h5]
    have : 0 < i.p - methodEWSonntag i.t2 := by linarith
    have := hi.hum
    positivity
  have hrho : 0 < fl.rho := by
    rw [h6]
    have : 0 < i.p := by linarith
    have := hi.air
    positivity
  have hz0 := hi.z0
  have hz := hi.z
  have l1 : 0 < Real.log (i.z / i.z0) := Real.log_pos (by rw [lt_div_iff₀ hz0]; linarith)
  have l2 : 0 < Real.log (i.z / (i.z0 / 100)) := Real.log_pos (by rw [lt_div_iff₀ (by positivity)]; linarith)
  have l3 : 0 < Real.log (i.z / (i.z0 / 10)) := Real.log_pos (by rw [lt_div_iff₀ (by positivity)]; linarith)
  have hpow : (0 : ℝ) < Transc.pow 0.41 2 := Real.rpow_pos_of_pos (by norm_num) _
  have hT : 0 < fl.csT := by rw [h3]; positivity
  have hQ : 0 < fl.csQ := by rw [h4]; positivity
  have hlv : 0 < fl.lv := by rw [h7]; split_ifs; exacts [hc.vap, hc.subl]
  have hcos : 0 ≤ Real.cos (i.slope * Real.pi / 180) := by
    have hpi := Real.pi_pos
    apply Real.cos_nonneg_of_neg_pi_div_two_le_of_le
    · have := mul_le_mul_of_nonneg_right hi.slope.1 hpi.le
      linarith
    · have := mul_le_mul_of_nonneg_right hi.slope.2 hpi.le
      linarith
  have hcp := hc.cAir
  have hu := hi.wind
  have hf := (C35_factor (bulkRi i t0)).1
  have e1 : fl.h = riPhi (bulkRi i t0) * (fl.rho * c.specHeatAir * fl.csT * i.u2 * Real.cos (i.slope * Real.pi / 180)) *
      (i.t2 - t0) := by rw [h1]; ring
  have e2 : fl.le = riPhi (bulkRi i t0) * (fl.rho * fl.lv * fl.csQ * i.u2 * Real.cos (i.slope * Real.pi / 180)) *
      (fl.q2 - fl.q0) := by rw [h2]; ring
  have k1 : 0 ≤ riPhi (bulkRi i t0) * (fl.rho * c.specHeatAir * fl.csT * i.u2 * Real.cos (i.slope * Real.pi / 180)) := by
    positivity
  have k2 : 0 ≤ riPhi (bulkRi i t0) * (fl.rho * fl.lv * fl.csQ * i.u2 * Real.cos (i.slope * Real.pi / 180)) := by
    positivity
  rw [e1, e2]
  exact ⟨fun h => mul_nonneg k1 (by linarith), fun h => mul_nonpos_of_nonneg_of_nonpos k1 (by linarith),
    fun h => mul_nonneg k2 (by linarith), fun h => mul_nonpos_of_nonneg_of_nonpos k2 (by linarith)⟩

/-- Non-vacuity: a stable winter situation with wind. -/
private noncomputable def exIn : EbInput ℝ := ⟨3600, 2, 1/1000, 270, 60, 700, 3, 0, 10, 268, 268, some 250, none⟩

example : SaneInput exIn := by
  refine ⟨by norm_num [exIn], by norm_num [exIn], by norm_num [exIn], ?_, by norm_num [exIn], by norm_num [exIn], by norm_num [exIn]⟩
  unfold methodEWSonntag exIn
  rw [if_neg (by norm_num)]
  have : Real.exp (22.46 * (270 - 273.16) / (270 - 0.55)) ≤ 1 := by rw [Real.exp_le_one_iff]; norm_num
  show 6.112 * Real.exp _ < 700
  linarith

example : ∃ fl, ebFluxes (Consts.default ℝ) false ⟨[⟨1/10, 268, 0, 1/2, 0⟩], 1, 0, 0, 0⟩ exIn 268 = .ok fl := by
  unfold ebFluxes
  simp only [incomingLongwave, exIn, ok_bind]
  exact ⟨_, rfl⟩

end Cosipy
