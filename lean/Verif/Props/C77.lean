import Verif.Model.Shading
import Verif.Model.RealTrig
import Verif.Model.Nan
import Verif.Spec.Sun
import Verif.Lemmas.Basic
import Mathlib.Analysis.SpecialFunctions.Pow.Real
import Mathlib.Analysis.Convex.SpecificFunctions.Basic
import Mathlib.Tactic.Linarith
import Mathlib.Tactic.Positivity
import Mathlib.Tactic.NormNum
import Mathlib.Tactic.FieldSimp
import Mathlib.Tactic.Ring

/-!
# C77 Modelled radiation on the glacier (module Moelg2009)

Geometry: the beam falls on a slope with the cosine of the angle between the sun and the normal of the slope. Range: not
negative and not more than the sun sends, for pressures up to 820 hPa. Clouds: the overcast value, and a jump at cloud
fraction 0. Rows: every cell gets the radiation of its own slope although all arrays are turned upside down.
-/

set_option autoImplicit false
set_option linter.unusedSectionVars false

namespace Cosipy
open RadCor

/-! ## Geometry -/

theorem sunDir_unit (δ φ ω : ℝ) : (sunDir δ φ ω).dot (sunDir δ φ ω) = 1 := by
  simp only [Dir.dot, sunDir]
  have h1 := Real.sin_sq_add_cos_sq δ
  have h2 := Real.sin_sq_add_cos_sq φ
  have h3 := Real.sin_sq_add_cos_sq ω
  generalize Real.sin δ = a at *; generalize Real.cos δ = b at *
  generalize Real.sin φ = c at *; generalize Real.cos φ = d at *
  generalize Real.sin ω = e at *; generalize Real.cos ω = f at *
  have : b * e * (b * e) + (a * d - b * c * f) * (a * d - b * c * f) + (a * c + b * d * f) * (a * c + b * d * f) =
      b ^ 2 * e ^ 2 + (a ^ 2 + b ^ 2 * f ^ 2) * (c ^ 2 + d ^ 2) := by ring
  rw [this, h2, mul_one, show b ^ 2 * e ^ 2 + (a ^ 2 + b ^ 2 * f ^ 2) = a ^ 2 + b ^ 2 * (e ^ 2 + f ^ 2) by ring, h3, mul_one, h1]

theorem slopeNormal_unit (s a : ℝ) : (slopeNormal s a).dot (slopeNormal s a) = 1 := by
  simp only [Dir.dot, slopeNormal]
  have h1 := Real.sin_sq_add_cos_sq s
  have h2 := Real.sin_sq_add_cos_sq a
  have : Real.sin s * Real.sin a * (Real.sin s * Real.sin a) + Real.sin s * Real.cos a * (Real.sin s * Real.cos a) +
      Real.cos s * Real.cos s = Real.sin s ^ 2 * (Real.sin a ^ 2 + Real.cos a ^ 2) + Real.cos s ^ 2 := by ring
  rw [this, h2, mul_one, h1]

theorem dot_le_one {a b : Dir} (ha : a.dot a = 1) (hb : b.dot b = 1) : a.dot b ≤ 1 := by
  simp only [Dir.dot] at *
  nlinarith [sq_nonneg (a.e - b.e), sq_nonneg (a.n - b.n), sq_nonneg (a.u - b.u)]

theorem deg_eq (x : ℝ) : (x * Transc.pi / 180.0 : ℝ) = deg x := by
  show x * Real.pi / 180.0 = deg x
  unfold deg; norm_num

theorem sinElev_eq (δ lat stime : ℝ) : sinElev δ lat stime = (sunDir δ (deg lat) (deg stime)).u := by
  unfold sinElev
  rw [deg_eq, deg_eq]; rfl

/-- **C77, geometry.** The factor for the beam on a slope is the scalar product of the directions of the sun and of the
normal of the slope; it is at most 1, and for level ground it is the sine of the sun's elevation. -/
theorem C77_geometry (δ lat stime slope aspect : ℝ) :
    cosZetap δ lat stime slope aspect = (sunDir δ (deg lat) (deg stime)).dot (slopeNormal (deg slope) (deg aspect)) ∧
    cosZetap δ lat stime slope aspect ≤ 1 ∧ cosZetap δ lat stime 0 aspect = sinElev δ lat stime := by
  have key : ∀ slope : ℝ, cosZetap δ lat stime slope aspect =
      (sunDir δ (deg lat) (deg stime)).dot (slopeNormal (deg slope) (deg aspect)) := by
    intro slope
    have h180 : deg (180.0 - aspect) = Real.pi - deg aspect := by unfold deg; norm_num; ring
    unfold cosZetap radians
    simp only [deg_eq, h180]
    show (Real.cos (deg slope) * Real.sin (deg lat) - Real.cos (deg lat) * Real.cos (Real.pi - deg aspect) * Real.sin (deg slope)) *
        Real.sin δ + (Real.sin (deg lat) * Real.cos (Real.pi - deg aspect) * Real.sin (deg slope) +
          Real.cos (deg slope) * Real.cos (deg lat)) * Real.cos δ * Real.cos (deg stime) +
        Real.sin (Real.pi - deg aspect) * Real.sin (deg slope) * Real.cos δ * Real.sin (deg stime) = _
    rw [Real.cos_pi_sub, Real.sin_pi_sub]
    simp only [Dir.dot, sunDir, slopeNormal]
    ring
  refine ⟨key slope, ?_, ?_⟩
  · rw [key]; exact dot_le_one (sunDir_unit _ _ _) (slopeNormal_unit _ _)
  · rw [key, sinElev_eq]
    simp [Dir.dot, slopeNormal, deg]

/-! ## Transmissivities -/

theorem airMass_bounds {s : ℝ} (h : 0.01 ≤ s) : 0 < airMass s ∧ airMass s ≤ 33.05 := by
  have e : airMass s = 35 * (1224 * (s * s) + 1) ^ (-(1 / 2) : ℝ) := by
    show 35.0 * (1224.0 * (s * s) + 1.0 : ℝ) ^ (-0.5 : ℝ) = _
    norm_num
  rw [e]
  norm_num at h
  have hb : (1.1224 : ℝ) ≤ 1224 * (s * s) + 1 := by nlinarith
  have hpos : (0 : ℝ) < 1224 * (s * s) + 1 := by nlinarith
  refine ⟨by positivity, ?_⟩
  rw [Real.rpow_neg hpos.le, ← Real.sqrt_eq_rpow]
  have hs : (1.0592 : ℝ) ≤ Real.sqrt (1224 * (s * s) + 1) := by
    apply Real.le_sqrt_of_sq_le; norm_num at hb ⊢; linarith
  have : (Real.sqrt (1224 * (s * s) + 1))⁻¹ ≤ (1.0592)⁻¹ := inv_anti₀ (by norm_num) hs
  calc 35 * (Real.sqrt (1224 * (s * s) + 1))⁻¹ ≤ 35 * (1.0592)⁻¹ := by gcongr
    _ ≤ 33.05 := by norm_num

theorem bernoulli {m q : ℝ} (hm : 0 ≤ m) (hq : 1 ≤ q) : 2 - q + (q - 1) * m ≤ 1 - m + m ^ q := by
  have := one_add_mul_self_le_rpow_one_add (s := m - 1) (by linarith) hq
  rw [show 1 + (m - 1) = m by ring] at this
  nlinarith

/-- A small extra power adds little up to 27. -/
theorem pow_small {m q b : ℝ} {k n : ℕ} (hm : 0 ≤ m) (h27 : m ≤ 27) (hq : q = (k : ℝ) / (n : ℝ)) (hn : n ≠ 0) (hb : 0 ≤ b)
    (h : (27 : ℝ) ^ k ≤ b ^ n) : m ^ (1 + q) ≤ m * b := by
  rcases hm.eq_or_lt with h0 | h0
  · rw [← h0, zero_mul, Real.zero_rpow]
    rw [hq]; positivity
  have hq0 : 0 ≤ q := by rw [hq]; positivity
  rw [Real.rpow_add h0, Real.rpow_one]
  apply mul_le_mul_of_nonneg_left _ hm
  calc m ^ q ≤ 27 ^ q := Real.rpow_le_rpow hm h27 hq0
    _ = ((27 : ℝ) ^ k) ^ ((n : ℝ)⁻¹) := by
        rw [← Real.rpow_natCast, ← Real.rpow_mul (by norm_num), hq, div_eq_mul_inv]
    _ ≤ (b ^ n) ^ ((n : ℝ)⁻¹) := Real.rpow_le_rpow (by positivity) h (by positivity)
    _ = b := Real.pow_rpow_inv_natCast hb hn

/-- Relative optical air mass. -/
noncomputable def relMass (p mopt : ℝ) : ℝ := p / 1013.25 * mopt

/-- The transmissivities of a cell with the air mass `mopt`, in real notation. -/
theorem taus_eq (mopt p elev vp t : ℝ) :
    (taus mopt p elev vp t).r = Real.exp (-0.0903 * relMass p mopt ^ (0.84 : ℝ) *
      (1 + relMass p mopt - relMass p mopt ^ (1.01 : ℝ))) ∧
    (taus mopt p elev vp t).g = Real.exp (-0.0127 * mopt ^ (0.26 : ℝ)) ∧
    (taus mopt p elev vp t).a = (min (2.4845e-5 * elev + 0.87764) 1) ^ mopt ∧
    (taus mopt p elev vp t).aa = 1 - 0.1 * (1 - relMass p mopt + relMass p mopt ^ (1.06 : ℝ)) *
      (1 - (taus mopt p elev vp t).a) ∧
    (taus mopt p elev vp t).w = 1 - 2.4959 * (mopt * (46.5 * vp / t)) / ((1 + 79.034 * (mopt * (46.5 * vp / t))) ^ (0.6828 : ℝ)
      + 6.385 * (mopt * (46.5 * vp / t))) := by
  refine ⟨?_, rfl, ?_, ?_, ?_⟩
  · show Real.exp (-0.09030 * relMass p mopt ^ (0.84 : ℝ) * (1.0 + relMass p mopt - relMass p mopt ^ (1.01 : ℝ))) = _
    norm_num
  · show (if 1.0 < 2.4845e-5 * elev + 0.87764 then (1.0 : ℝ) else 2.4845e-5 * elev + 0.87764) ^ mopt = _
    congr 1
    rw [show (1.0 : ℝ) = 1 by norm_num]
    split_ifs with h
    · rw [min_eq_right h.le]
    · rw [min_eq_left (not_lt.1 h)]
  · show (1.0 : ℝ) - (1.0 - 0.9) * (1.0 - relMass p mopt + relMass p mopt ^ (1.06 : ℝ)) * (1.0 - (taus mopt p elev vp t).a) = _
    norm_num
  · show (1.0 : ℝ) - 2.4959 * mopt * (46.5 * vp / t) / ((1.0 + 79.034 * mopt * (46.5 * vp / t)) ^ (0.6828 : ℝ)
      + 6.385 * mopt * (46.5 * vp / t)) = _
    rw [show (1.0 : ℝ) = 1 by norm_num, mul_assoc, mul_assoc, mul_assoc]

/-- Air of a cell for which the formulas make sense. -/
structure SaneAir (p elev vp t : ℝ) : Prop where
  p : 0 ≤ p
  elev : -35000 ≤ elev
  vp : 0 ≤ vp
  t : 0 < t

/-- Bounds of the transmissivities that need no bound on the pressure. -/
theorem taus_bounds {mopt p elev vp t : ℝ} (hm : 0 < mopt) (ha : SaneAir p elev vp t) :
    0 < (taus mopt p elev vp t).r ∧ 0 < (taus mopt p elev vp t).g ∧ (taus mopt p elev vp t).g ≤ 1 ∧
    0 < (taus mopt p elev vp t).a ∧ (taus mopt p elev vp t).a ≤ 1 ∧ (taus mopt p elev vp t).aa ≤ 1 ∧
    3 / 5 < (taus mopt p elev vp t).w ∧ (taus mopt p elev vp t).w ≤ 1 := by
  obtain ⟨er, eg, ea, eaa, ew⟩ := taus_eq mopt p elev vp t
  have hmm : 0 ≤ relMass p mopt := mul_nonneg (div_nonneg ha.p (by norm_num)) hm.le
  have hk : 0 < min (2.4845e-5 * elev + 0.87764) (1 : ℝ) := by
    apply lt_min _ one_pos
    have := ha.elev
    norm_num; linarith
  have ha1 : (taus mopt p elev vp t).a ≤ 1 := by
    rw [ea]; exact Real.rpow_le_one hk.le (min_le_right _ _) hm.le
  have ha0 : 0 < (taus mopt p elev vp t).a := by rw [ea]; exact Real.rpow_pos_of_pos hk _
  refine ⟨by rw [er]; exact Real.exp_pos _, by rw [eg]; exact Real.exp_pos _, ?_, ha0, ha1, ?_, ?_, ?_⟩
  · rw [eg, Real.exp_le_one_iff]
    have : 0 ≤ mopt ^ (0.26 : ℝ) := by positivity
    norm_num at this ⊢
    linarith
  · rw [eaa]
    have hb := bernoulli hmm (show (1 : ℝ) ≤ 1.06 by norm_num)
    have : 0 ≤ 1 - relMass p mopt + relMass p mopt ^ (1.06 : ℝ) := by
      refine le_trans ?_ hb
      have : (0 : ℝ) ≤ (1.06 - 1) * relMass p mopt := mul_nonneg (by norm_num) hmm
      norm_num at this ⊢; linarith
    have : 0 ≤ 0.1 * (1 - relMass p mopt + relMass p mopt ^ (1.06 : ℝ)) * (1 - (taus mopt p elev vp t).a) :=
      mul_nonneg (mul_nonneg (by norm_num) this) (by linarith)
    linarith
  all_goals
    rw [ew]
    have hx : 0 ≤ mopt * (46.5 * vp / t) := by
      have := ha.vp; have := ha.t; positivity
    generalize mopt * (46.5 * vp / t) = x at hx
    have hD : (1 : ℝ) ≤ (1 + 79.034 * x) ^ (0.6828 : ℝ) := by
      apply Real.one_le_rpow _ (by norm_num)
      have : 0 ≤ 79.034 * x := by positivity
      linarith
    generalize (1 + 79.034 * x) ^ (0.6828 : ℝ) = D at hD
    have hden : 0 < D + 6.385 * x := by positivity
  · have : 2.4959 * x / (D + 6.385 * x) < 2 / 5 := by
      rw [div_lt_iff₀ hden]
      norm_num; linarith
    linarith
  · have : 0 ≤ 2.4959 * x / (D + 6.385 * x) := by positivity
    linarith

/-- For pressures up to 820 hPa the Rayleigh transmissivity is at most 1 and the aerosol transmissivities are ordered. -/
theorem taus_order {s p elev vp t : ℝ} (hs : 0.01 ≤ s) (ha : SaneAir p elev vp t) (hp : p ≤ 820) :
    (taus (airMass s) p elev vp t).r ≤ 1 ∧
    (taus (airMass s) p elev vp t).r * (taus (airMass s) p elev vp t).a ≤ (taus (airMass s) p elev vp t).aa := by
  obtain ⟨m0, m1⟩ := airMass_bounds hs
  obtain ⟨er, eg, ea, eaa, ew⟩ := taus_eq (airMass s) p elev vp t
  obtain ⟨r0, _, _, a0, a1, _⟩ := taus_bounds m0 ha
  have hmm : 0 ≤ relMass p (airMass s) := mul_nonneg (div_nonneg ha.p (by norm_num)) m0.le
  have h27 : relMass p (airMass s) ≤ 27 := by
    unfold relMass
    calc p / 1013.25 * airMass s ≤ 820 / 1013.25 * 33.05 := by gcongr
      _ ≤ 27 := by norm_num
  have p1 : relMass p (airMass s) ^ (1.01 : ℝ) ≤ relMass p (airMass s) * (28 / 27) := by
    have := pow_small (q := 0.01) (b := 28 / 27) (k := 1) (n := 100) hmm h27 (by norm_num) (by norm_num) (by norm_num) (by norm_num)
    rwa [show (1 : ℝ) + 0.01 = 1.01 by norm_num] at this
  have p6 : relMass p (airMass s) ^ (1.06 : ℝ) ≤ relMass p (airMass s) * (4 / 3) := by
    have := pow_small (q := 0.06) (b := 4 / 3) (k := 6) (n := 100) hmm h27 (by norm_num) (by norm_num) (by norm_num) (by norm_num)
    rwa [show (1 : ℝ) + 0.06 = 1.06 by norm_num] at this
  have hr : (taus (airMass s) p elev vp t).r ≤ 1 := by
    rw [er, Real.exp_le_one_iff]
    have h84 : 0 ≤ relMass p (airMass s) ^ (0.84 : ℝ) := by positivity
    have : 0 ≤ 1 + relMass p (airMass s) - relMass p (airMass s) ^ (1.01 : ℝ) := by linarith
    have := mul_nonneg (mul_nonneg (show (0 : ℝ) ≤ 0.0903 by norm_num) h84) this
    linarith
  refine ⟨hr, ?_⟩
  rw [eaa]
  have hA : 1 - relMass p (airMass s) + relMass p (airMass s) ^ (1.06 : ℝ) ≤ 10 := by linarith
  have h1 : (taus (airMass s) p elev vp t).r * (taus (airMass s) p elev vp t).a ≤ (taus (airMass s) p elev vp t).a :=
    mul_le_of_le_one_left a0.le hr
  have h2 : 0.1 * (1 - relMass p (airMass s) + relMass p (airMass s) ^ (1.06 : ℝ)) * (1 - (taus (airMass s) p elev vp t).a) ≤
      1 * (1 - (taus (airMass s) p elev vp t).a) := by
    apply mul_le_mul_of_nonneg_right _ (by linarith)
    norm_num at hA ⊢; linarith
  linarith

/-! ## Clear sky -/

/-- Clear-sky direct and diffuse radiation in real notation. -/
theorem clearSky_eq (ecc s mopt p : ℝ) (x : Taus ℝ) (haa : x.aa ≠ 0) : clearSky ecc s mopt p x =
    (1367 * ecc * s * (x.r * x.g * x.a * x.w),
     1367 * ecc * s * (x.g * x.w) * (0.66 * (x.aa - x.r * x.a) / (1 - relMass p mopt + relMass p mopt ^ (1.02 : ℝ)))) := by
  have e1 : (1.0 : ℝ) = 1 := by norm_num
  have e2 : (1367.0 : ℝ) = 1367 := by norm_num
  show (1367.0 * ecc * s * (x.r * x.g * x.a * x.w), 0.66 * 1367.0 * ecc * s * x.g * x.w * x.aa * (1.0 - x.r * x.a / x.aa) /
    (1.0 - relMass p mopt + relMass p mopt ^ (1.02 : ℝ))) = _
  rw [e1, e2]
  congr 1
  rw [show 0.66 * 1367 * ecc * s * x.g * x.w * x.aa * (1 - x.r * x.a / x.aa) =
    1367 * ecc * s * (x.g * x.w) * (0.66 * (x.aa - x.r * x.a)) by field_simp]
  rw [mul_div_assoc]

/-- **C77, clear sky.** On level ground under a clear sky the direct and the diffuse part are not negative and together
at most what arrives at the top of the atmosphere. -/
theorem C77_clear_sky {ecc s p elev vp t : ℝ} (he : 0 ≤ ecc) (hs : 0.01 ≤ s) (ha : SaneAir p elev vp t)
    (ho : (taus (airMass s) p elev vp t).r * (taus (airMass s) p elev vp t).a ≤ (taus (airMass s) p elev vp t).aa) :
    0 ≤ (clearSky ecc s (airMass s) p (taus (airMass s) p elev vp t)).1 ∧
    0 ≤ (clearSky ecc s (airMass s) p (taus (airMass s) p elev vp t)).2 ∧
    (clearSky ecc s (airMass s) p (taus (airMass s) p elev vp t)).1 +
      (clearSky ecc s (airMass s) p (taus (airMass s) p elev vp t)).2 ≤ 1367 * ecc * s := by
  obtain ⟨m0, _⟩ := airMass_bounds hs
  obtain ⟨r0, g0, g1, a0, a1, aa1, w0, w1⟩ := taus_bounds m0 ha
  have hra := mul_pos r0 a0
  have haa : (taus (airMass s) p elev vp t).aa ≠ 0 := (hra.trans_le ho).ne'
  have hmm : 0 ≤ relMass p (airMass s) := mul_nonneg (div_nonneg ha.p (by norm_num)) m0.le
  rw [clearSky_eq _ _ _ _ _ haa]
  generalize taus (airMass s) p elev vp t = x at *
  have hden : (0.98 : ℝ) ≤ 1 - relMass p (airMass s) + relMass p (airMass s) ^ (1.02 : ℝ) := by
    have hb := bernoulli hmm (show (1 : ℝ) ≤ 1.02 by norm_num)
    refine le_trans ?_ hb
    have : (0 : ℝ) ≤ (1.02 - 1) * relMass p (airMass s) := mul_nonneg (by norm_num) hmm
    norm_num at this ⊢; linarith
  generalize 1 - relMass p (airMass s) + relMass p (airMass s) ^ (1.02 : ℝ) = den at hden
  have hd0 : 0 < den := lt_of_lt_of_le (by norm_num) hden
  have hs0 : (0 : ℝ) ≤ s := le_trans (by norm_num) hs
  have hS : 0 ≤ 1367 * ecc * s := by positivity
  have hq0 : 0 ≤ 0.66 * (x.aa - x.r * x.a) / den := div_nonneg (mul_nonneg (by norm_num) (by linarith)) hd0.le
  have hq1 : 0.66 * (x.aa - x.r * x.a) / den ≤ x.aa - x.r * x.a := by
    rw [div_le_iff₀ hd0]
    have h0 : 0 ≤ x.aa - x.r * x.a := by linarith
    have h1 := mul_le_mul_of_nonneg_left hden h0
    norm_num at h1 ⊢; linarith
  have hgw0 : 0 ≤ x.g * x.w := mul_nonneg g0.le (by linarith)
  have hgw1 : x.g * x.w ≤ 1 := mul_le_one₀ g1 (by linarith) w1
  refine ⟨?_, ?_, ?_⟩
  · exact mul_nonneg hS (mul_nonneg (mul_nonneg (mul_nonneg r0.le g0.le) a0.le) (by linarith))
  · exact mul_nonneg (mul_nonneg hS hgw0) hq0
  · simp only
    calc 1367 * ecc * s * (x.r * x.g * x.a * x.w) + 1367 * ecc * s * (x.g * x.w) * (0.66 * (x.aa - x.r * x.a) / den)
        = 1367 * ecc * s * ((x.g * x.w) * (x.r * x.a + 0.66 * (x.aa - x.r * x.a) / den)) := by ring
      _ ≤ 1367 * ecc * s * (1 * 1) := by
          apply mul_le_mul_of_nonneg_left _ hS
          apply mul_le_mul hgw1 _ _ zero_le_one
          · linarith
          · linarith
      _ = 1367 * ecc * s := by ring

/-! ## One cell -/

/-- Direct radiation on a slope under a clear sky. -/
theorem directSlope_eq (ecc cosz tau : ℝ) (illu : Option ℝ) :
    directSlope ecc cosz tau illu = if illu = some 0 then 0 else 1367 * ecc * max cosz 0 * tau := by
  have e0 : (0.0 : ℝ) = 0 := by norm_num
  have e2 : (1367.0 : ℝ) = 1367 := by norm_num
  have hs : (if cosz < 0.0 then (0.0 : ℝ) else 1367.0 * ecc * cosz * tau) = 1367 * ecc * max cosz 0 * tau := by
    rw [e0, e2]
    split_ifs with h
    · rw [max_eq_right h.le]; ring
    · rw [max_eq_left (not_lt.1 h)]
  unfold directSlope
  simp only [hs]
  rcases illu with _ | v
  · simp
  · simp only [e0, Option.some.injEq]
    by_cases h : v = 0
    · simp [h]
    · rw [if_neg h, if_neg]; simpa using h

/-- The radiation of a cell by day: direct part, level clear-sky parts, cloud formula. -/
theorem dayCell_eq (δ ecc lat stime : ℝ) (x : RadCell ℝ) {v : ℝ} (hv : x.svf = some v) :
    let s := sinElev δ lat stime
    let τ := taus (airMass s) x.p x.elev x.vp x.t
    let cs := clearSky ecc s (airMass s) x.p τ
    let dir := directSlope ecc (cosZetap δ lat stime x.slope x.aspect) (tauCs τ) x.illu
    (x.cld = 0 → dayCell δ ecc lat stime x = some (dir + cs.2 * v)) ∧
    (0 < x.cld → dayCell δ ecc lat stime x =
      some (dir * (1 - x.cld) + (cs.1 + cs.2) * (0.304 * x.cld + 0.046) * v)) ∧
    (x.cld < 0 → dayCell δ ecc lat stime x = none) := by
  intro s τ cs dir
  have e0 : (0.0 : ℝ) = 0 := by norm_num
  have e1 : (1.0 : ℝ) = 1 := by norm_num
  have hd : dayCell δ ecc lat stime x = (diffuse (cs.1 + cs.2) cs.2 x.cld x.svf).map
      fun d => dir * (1.0 - (1.0 - 0.0) * x.cld) + d := rfl
  rw [hd]
  unfold diffuse
  rw [hv, e0, e1]
  refine ⟨fun h => ?_, fun h => ?_, fun h => ?_⟩
  · rw [h, if_neg (lt_irrefl _), if_pos (by simp)]
    simp
  · rw [if_pos h]
    simp only [Option.map_some, Option.some.injEq]
    norm_num
  · rw [if_neg (not_lt.2 h.le), if_neg (by simpa using h.ne)]
    rfl

/-- A cell with sane air, cloud fraction and sky view between 0 and 1. -/
structure SaneCell (x : RadCell ℝ) : Prop where
  air : SaneAir x.p x.elev x.vp x.t
  pres : x.p ≤ 820
  cld : 0 ≤ x.cld ∧ x.cld ≤ 1
  svf : ∃ v, x.svf = some v ∧ 0 ≤ v ∧ v ≤ 1

/-- **C77, night.** With the sun at or below an elevation of sine 0.01 every glacier cell gets 0, and no value is given
elsewhere. -/
theorem C77_night {δ ecc lat stime : ℝ} (h : sinElev δ lat stime ≤ 0.01) (x : RadCell ℝ) :
    radCell δ ecc lat stime x = if x.mask then some 0 else none := by
  unfold radCell
  rw [if_neg (not_lt.2 h)]
  norm_num

/-- **C77, night, gaps.** With gaps in the data: at night a glacier cell gets 0 if its elevation is known, also at sea
level, whatever the other data of the cell. -/
theorem C77_night_gaps {δ ecc lat stime : Nan ℝ} (h : ¬ 0.01 < sinElev δ lat stime) (x : RadCell (Nan ℝ)) {e : ℝ}
    (he : x.elev = .num e) : radCell δ ecc lat stime x = if x.mask then some (.num 0) else none := by
  unfold radCell
  rw [if_neg h, he]
  have : (0.0 : Nan ℝ) * .num e = .num 0 := by
    show Nan.num ((0.0 : ℝ) * e) = _
    norm_num
  rw [this]

/-- Non-vacuity: on the equator at midnight, sea level, without temperature. -/
example : ¬ (0.01 : Nan ℝ) < sinElev (.num 0) (.num 0) (.num 180) ∧
    (⟨.nan, .num 1013, .nan, .num 0, .num 0, .num 0, .num 0, true, none, none⟩ : RadCell (Nan ℝ)).elev = .num 0 := by
  refine ⟨?_, rfl⟩
  have hdiv : ∀ x : ℝ, (Nan.num x : Nan ℝ) / 180.0 = .num (x / 180.0) := by
    intro x
    show (if (Nan.num (180.0 : ℝ)) = .num 0 then Nan.nan else Nan.num (x / 180.0)) = _
    rw [if_neg]
    intro h
    injection h with h
    norm_num at h
  have hs : sinElev (.num 0 : Nan ℝ) (.num 0) (.num 180) = .num (sinElev (0 : ℝ) 0 180) := by
    unfold sinElev
    show Nan.num (Real.sin 0) * Transc.sin (Nan.num (0 * Real.pi) / 180.0) + Nan.num (Real.cos 0) *
      Transc.cos (Nan.num (0 * Real.pi) / 180.0) * Transc.cos (Nan.num (180 * Real.pi) / 180.0) = _
    rw [hdiv, hdiv]
    rfl
  rw [hs]
  have hv : sinElev (0 : ℝ) 0 180 = -1 := by
    unfold sinElev
    show Real.sin 0 * Real.sin (0 * Real.pi / 180.0) + Real.cos 0 * Real.cos (0 * Real.pi / 180.0) * Real.cos (180 * Real.pi / 180.0) = -1
    rw [show (180 : ℝ) * Real.pi / 180.0 = Real.pi by norm_num]
    simp
  rw [hv]
  show ¬ (0.01 : ℝ) < -1
  norm_num

/-- **C77, range.** By day every cell with pressure up to 820 hPa gets a value that is not negative and at most what the
sun sends onto its slope and onto level ground together. -/
theorem C77_range {δ ecc lat stime : ℝ} (he : 0 ≤ ecc) (h : 0.01 < sinElev δ lat stime) {x : RadCell ℝ} (hx : SaneCell x) :
    ∃ v, radCell δ ecc lat stime x = some v ∧ 0 ≤ v ∧
      v ≤ 1367 * ecc * (max (cosZetap δ lat stime x.slope x.aspect) 0 + sinElev δ lat stime) := by
  obtain ⟨w, hw, w0, w1⟩ := hx.svf
  obtain ⟨c0, c1⟩ := hx.cld
  obtain ⟨m0, _⟩ := airMass_bounds h.le
  obtain ⟨r1, ho⟩ := taus_order h.le hx.air hx.pres
  obtain ⟨r0, g0, g1, a0, a1, aa1, w0', w1'⟩ := taus_bounds m0 hx.air
  obtain ⟨s1, s2, s3⟩ := C77_clear_sky he h.le hx.air ho
  obtain ⟨d1, d2, -⟩ := dayCell_eq δ ecc lat stime x hw
  have ht0 : 0 ≤ tauCs (taus (airMass (sinElev δ lat stime)) x.p x.elev x.vp x.t) := by
    unfold tauCs
    exact mul_nonneg (mul_nonneg (mul_nonneg r0.le g0.le) a0.le) (by linarith)
  have ht1 : tauCs (taus (airMass (sinElev δ lat stime)) x.p x.elev x.vp x.t) ≤ 1 := by
    unfold tauCs
    refine mul_le_one₀ (mul_le_one₀ (mul_le_one₀ r1 g0.le g1) a0.le a1) (by linarith) w1'
  simp only [directSlope_eq] at d1 d2
  have hD0 : 0 ≤ 1367 * ecc * max (cosZetap δ lat stime x.slope x.aspect) 0 := by positivity
  have hdir : 0 ≤ (if x.illu = some 0 then 0 else 1367 * ecc * max (cosZetap δ lat stime x.slope x.aspect) 0 *
        tauCs (taus (airMass (sinElev δ lat stime)) x.p x.elev x.vp x.t)) ∧
      (if x.illu = some 0 then 0 else 1367 * ecc * max (cosZetap δ lat stime x.slope x.aspect) 0 *
        tauCs (taus (airMass (sinElev δ lat stime)) x.p x.elev x.vp x.t)) ≤
        1367 * ecc * max (cosZetap δ lat stime x.slope x.aspect) 0 := by
    split_ifs
    · exact ⟨le_rfl, hD0⟩
    · exact ⟨mul_nonneg hD0 ht0, mul_le_of_le_one_right hD0 ht1⟩
  generalize (if x.illu = some 0 then (0 : ℝ) else 1367 * ecc * max (cosZetap δ lat stime x.slope x.aspect) 0 *
        tauCs (taus (airMass (sinElev δ lat stime)) x.p x.elev x.vp x.t)) = dir at *
  generalize clearSky ecc (sinElev δ lat stime) (airMass (sinElev δ lat stime)) x.p
    (taus (airMass (sinElev δ lat stime)) x.p x.elev x.vp x.t) = cs at *
  unfold radCell
  rw [if_pos h, mul_add]
  rcases c0.eq_or_lt with hc | hc
  · refine ⟨_, d1 hc.symm, add_nonneg hdir.1 (mul_nonneg s2 w0), ?_⟩
    have : cs.2 * w ≤ cs.2 := mul_le_of_le_one_right s2 w1
    linarith [hdir.2]
  · refine ⟨_, d2 hc, ?_, ?_⟩
    · have h1 : 0 ≤ dir * (1 - x.cld) := mul_nonneg hdir.1 (by linarith)
      have h2 : 0 ≤ (cs.1 + cs.2) * (0.304 * x.cld + 0.046) * w :=
        mul_nonneg (mul_nonneg (by linarith) (by positivity)) w0
      linarith
    · have h1 : dir * (1 - x.cld) ≤ dir := mul_le_of_le_one_right hdir.1 (by linarith)
      have h2 : (cs.1 + cs.2) * (0.304 * x.cld + 0.046) * w ≤ cs.1 + cs.2 := by
        refine mul_le_of_le_one_right ?_ w1 |>.trans ?_
        · exact mul_nonneg (by linarith) (by positivity)
        · apply mul_le_of_le_one_right (by linarith)
          norm_num; linarith
      linarith [hdir.2]

/-- **C77, shade.** A cell that the table says is shaded, or whose slope is turned away from the sun, gets the diffuse part
only: its value does not depend on slope and aspect. -/
theorem C77_shade {δ ecc lat stime : ℝ} {x : RadCell ℝ}
    (hsh : x.illu = some 0 ∨ cosZetap δ lat stime x.slope x.aspect ≤ 0) {v : ℝ} (hv : x.svf = some v) (hc : 0 ≤ x.cld) :
    let s := sinElev δ lat stime
    let cs := clearSky ecc s (airMass s) x.p (taus (airMass s) x.p x.elev x.vp x.t)
    dayCell δ ecc lat stime x = some ((if x.cld = 0 then cs.2 else (cs.1 + cs.2) * (0.304 * x.cld + 0.046)) * v) := by
  intro s cs
  obtain ⟨d1, d2, -⟩ := dayCell_eq δ ecc lat stime x hv
  have hdir : ∀ τ : ℝ, directSlope ecc (cosZetap δ lat stime x.slope x.aspect) τ x.illu = 0 := by
    intro τ
    rw [directSlope_eq]
    split_ifs with h
    · rfl
    · rw [max_eq_right (hsh.resolve_left h)]; ring
  simp only [hdir] at d1 d2
  rcases hc.eq_or_lt with h | h
  · rw [if_pos h.symm, d1 h.symm, zero_add]
  · rw [if_neg h.ne', d2 h, zero_mul, zero_add]

/-- **C77, level ground.** A level cell with a free view and not shaded gets, under a clear sky, the clear-sky global
radiation; under an overcast sky 35 per cent of it. -/
theorem C77_level {δ ecc lat stime : ℝ} {x : RadCell ℝ} (hs : x.slope = 0) (h0 : 0 ≤ sinElev δ lat stime)
    (hi : x.illu ≠ some 0) (hv : x.svf = some 1) :
    let s := sinElev δ lat stime
    let cs := clearSky ecc s (airMass s) x.p (taus (airMass s) x.p x.elev x.vp x.t)
    (x.cld = 0 → dayCell δ ecc lat stime x = some (cs.1 + cs.2)) ∧
    (x.cld = 1 → dayCell δ ecc lat stime x = some (0.35 * (cs.1 + cs.2))) := by
  intro s cs
  obtain ⟨d1, d2, -⟩ := dayCell_eq δ ecc lat stime x hv
  simp only [directSlope_eq, if_neg hi, hs, (C77_geometry δ lat stime 0 x.aspect).2.2] at d1 d2
  have hcs : cs.1 = 1367 * ecc * max s 0 * tauCs (taus (airMass s) x.p x.elev x.vp x.t) := by
    show 1367.0 * ecc * s * _ = _
    rw [max_eq_left (show 0 ≤ s from h0), show (1367.0 : ℝ) = 1367 by norm_num]
  constructor
  · intro h
    rw [d1 h, ← hcs, mul_one]
  · intro h
    rw [d2 (by rw [h]; norm_num), h]
    congr 1
    norm_num
    ring

/-- **C77, clouds.** Between two positive cloud fractions the radiation of a cell does not rise with clouds exactly if its
direct part is at least 0.304 of the level clear-sky radiation seen by the cell. -/
theorem C77_clouds {δ ecc lat stime : ℝ} {x : RadCell ℝ} {v c₁ c₂ : ℝ} (hv : x.svf = some v) (h1 : 0 < c₁) (h12 : c₁ < c₂)
    {y₁ y₂ : ℝ} (e1 : dayCell δ ecc lat stime { x with cld := c₁ } = some y₁)
    (e2 : dayCell δ ecc lat stime { x with cld := c₂ } = some y₂) :
    let s := sinElev δ lat stime
    let τ := taus (airMass s) x.p x.elev x.vp x.t
    let cs := clearSky ecc s (airMass s) x.p τ
    y₂ ≤ y₁ ↔ 0.304 * (cs.1 + cs.2) * v ≤ directSlope ecc (cosZetap δ lat stime x.slope x.aspect) (tauCs τ) x.illu := by
  intro s τ cs
  have a := (dayCell_eq δ ecc lat stime { x with cld := c₁ } hv).2.1 h1
  have b := (dayCell_eq δ ecc lat stime { x with cld := c₂ } hv).2.1 (h1.trans h12)
  simp only at a b
  rw [a] at e1; rw [b] at e2
  cases e1; cases e2
  set dir := directSlope ecc (cosZetap δ lat stime x.slope x.aspect) (tauCs τ) x.illu
  have key : (dir * (1 - c₂) + (cs.1 + cs.2) * (0.304 * c₂ + 0.046) * v) -
      (dir * (1 - c₁) + (cs.1 + cs.2) * (0.304 * c₁ + 0.046) * v) =
      (c₂ - c₁) * (0.304 * (cs.1 + cs.2) * v - dir) := by ring
  have hpos : 0 < c₂ - c₁ := sub_pos.2 h12
  constructor
  · intro h
    by_contra hc
    push Not at hc
    have := mul_pos hpos (sub_pos.2 hc)
    linarith
  · intro h
    have := mul_nonneg hpos.le (sub_nonneg.2 h)
    linarith

/-- A cell at sea level below a sun in the zenith, cloud fraction `c`. -/
noncomputable def zenithCell (c : ℝ) : RadCell ℝ := ⟨280, 1013.25, 0, c, 0, 0, 0, true, some 1, some 1⟩

/-- **C77, jump at the clear sky.** The radiation is not continuous in the cloud fraction at 0: at the equator with the sun
in the zenith over a level cell without clouds, every positive cloud fraction, however small, takes off at least 2 per
cent of the solar constant reduced by the permanent gases. -/
theorem C77_jump_refuted : ∃ y₀, radCell (0 : ℝ) 1 0 0 (zenithCell 0) = some y₀ ∧
    ∀ c, 0 < c → c ≤ 1 → ∃ y, radCell (0 : ℝ) 1 0 0 (zenithCell c) = some y ∧ y + 27 * Real.exp (-0.0127) ≤ y₀ := by
  have hs : sinElev (0 : ℝ) 0 0 = 1 := by
    show Real.sin 0 * Real.sin (0 * Real.pi / 180.0) + Real.cos 0 * Real.cos (0 * Real.pi / 180.0) * Real.cos (0 * Real.pi / 180.0) = 1
    simp
  have hm : airMass (1 : ℝ) = 1 := by
    show 35.0 * (1224.0 * (1 * 1) + 1.0 : ℝ) ^ (-0.5 : ℝ) = 1
    rw [show (1224.0 * (1 * 1) + 1.0 : ℝ) = 35 ^ (2 : ℝ) by norm_num, ← Real.rpow_mul (by norm_num)]
    norm_num [Real.rpow_neg_one]
  have hrm : relMass 1013.25 1 = 1 := by unfold relMass; norm_num
  have hz : cosZetap (0 : ℝ) 0 0 0 0 = 1 := by rw [(C77_geometry 0 0 0 0 0).2.2, hs]
  obtain ⟨er, eg, ea, eaa, ew⟩ := taus_eq 1 1013.25 0 0 280
  rw [hrm] at er eaa
  simp only [Real.rpow_one, Real.one_rpow] at er eg ea eaa ew
  set τ := taus (1 : ℝ) 1013.25 0 0 280 with hτ
  have ha : τ.a = 0.87764 := by rw [ea]; norm_num
  have haa : τ.aa = 0.987764 := by rw [eaa, ha]; norm_num
  have hw : τ.w = 1 := by rw [ew]; norm_num
  have hr1 : τ.r ≤ 1 := by rw [er, Real.exp_le_one_iff]; norm_num
  have hr0 : 0 < τ.r := by rw [er]; exact Real.exp_pos _
  have hg : τ.g = Real.exp (-0.0127) := by rw [eg]; norm_num
  have hcs := clearSky_eq 1 1 1 1013.25 τ (by rw [haa]; norm_num)
  rw [hrm, Real.one_rpow, haa, ha, hw] at hcs
  have hG : 0 < Real.exp (-0.0127) := Real.exp_pos _
  have hdir : ∀ τ' : ℝ, directSlope (1 : ℝ) 1 τ' (some 1) = 1367 * τ' := by
    intro τ'
    rw [directSlope_eq, if_neg (by norm_num)]; norm_num
  have hmain : ∀ c : ℝ, radCell (0 : ℝ) 1 0 0 (zenithCell c) = dayCell (0 : ℝ) 1 0 0 (zenithCell c) := by
    intro c; unfold radCell; rw [hs, if_pos (by norm_num)]
  have ht : tauCs τ = τ.r * Real.exp (-0.0127) * 0.87764 := by unfold tauCs; rw [hg, ha, hw, mul_one]
  refine ⟨_, (hmain 0).trans ((dayCell_eq 0 1 0 0 (zenithCell 0) (v := 1) rfl).1 rfl), fun c hc hc1 => ?_⟩
  refine ⟨_, (hmain c).trans ((dayCell_eq 0 1 0 0 (zenithCell c) (v := 1) rfl).2.1 hc), ?_⟩
  simp only [zenithCell, hs, hm, hz, ← hτ, hcs, hdir, ht, hg]
  generalize Real.exp (-0.0127) = G at *
  generalize τ.r = R at *
  have hRG : R * G ≤ G := mul_le_of_le_one_left hG.le hr1
  have hRG0 : 0 < R * G := mul_pos hr0 hG
  have hcG : c * (R * G) ≤ c * G := mul_le_mul_of_nonneg_left hRG hc.le
  have hcR : 0 < c * (R * G) := mul_pos hc hRG0
  have hcG' : c * G ≤ G := mul_le_of_le_one_left hG.le hc1
  norm_num
  nlinarith

/-- **C77, Rayleigh scattering.** At sea level with the sun just above the horizon (sine 1/99) the transmissivity for
Rayleigh scattering exceeds 1: the atmosphere amplifies. This is why `C77_range` bounds the pressure. -/
theorem C77_rayleigh_refuted (elev vp t : ℝ) : (0.01 : ℝ) < 1 / 99 ∧ 1 < (taus (airMass (1 / 99)) 1013.25 elev vp t).r := by
  have hm : airMass (1 / 99 : ℝ) = 33 := by
    show 35.0 * (1224.0 * (1 / 99 * (1 / 99)) + 1.0 : ℝ) ^ (-0.5 : ℝ) = 33
    rw [show (1224.0 * (1 / 99 * (1 / 99)) + 1.0 : ℝ) = (35 / 33) ^ (2 : ℝ) by norm_num, ← Real.rpow_mul (by norm_num)]
    norm_num [Real.rpow_neg_one]
  refine ⟨by norm_num, ?_⟩
  rw [hm, (taus_eq 33 1013.25 elev vp t).1]
  have hr : relMass 1013.25 33 = 33 := by unfold relMass; norm_num
  rw [hr, Real.one_lt_exp_iff]
  have h1 : (34 : ℝ) < 33 ^ (1.01 : ℝ) := by
    have : (34 / 33 : ℝ) < 33 ^ (0.01 : ℝ) := by
      have e : (33 : ℝ) ^ (0.01 : ℝ) = ((33 : ℝ)) ^ (((100 : ℕ) : ℝ)⁻¹) := by norm_num
      rw [e, Real.lt_rpow_inv_iff_of_pos (by norm_num) (by norm_num) (by norm_num), Real.rpow_natCast]
      norm_num
    rw [show (1.01 : ℝ) = 1 + 0.01 by norm_num, Real.rpow_add (by norm_num), Real.rpow_one]
    linarith
  have h2 : (0 : ℝ) < 33 ^ (0.84 : ℝ) := by positivity
  have h3 := mul_pos h2 (show (0 : ℝ) < 33 ^ (1.01 : ℝ) - 34 by linarith)
  norm_num at h3 ⊢
  linarith

/-! ## The whole grid -/

theorem eccentricity {lat : ℝ} {j : Nat} {row : SolRow ℝ} (h : solRow lat j = .ok row) :
    0 ≤ row.eccorr ∧ row.eccorr ≤ 1.0365 := by
  unfold solRow at h
  simp only [bind_eq_ok] at h
  obtain ⟨_, _, h⟩ := h
  rw [pure_eq_ok] at h
  subst h
  show 0 ≤ 1.00011 + 0.034221 * Real.cos (2.0 * Real.pi * (j : ℝ) / 365.0) + 0.00128 * Real.sin (2.0 * Real.pi * (j : ℝ) / 365.0) +
      0.000719 * Real.cos (2.0 * (2.0 * Real.pi * (j : ℝ) / 365.0)) + 0.000077 * Real.sin (2.0 * (2.0 * Real.pi * (j : ℝ) / 365.0)) ∧
    1.00011 + 0.034221 * Real.cos (2.0 * Real.pi * (j : ℝ) / 365.0) + 0.00128 * Real.sin (2.0 * Real.pi * (j : ℝ) / 365.0) +
      0.000719 * Real.cos (2.0 * (2.0 * Real.pi * (j : ℝ) / 365.0)) + 0.000077 * Real.sin (2.0 * (2.0 * Real.pi * (j : ℝ) / 365.0)) ≤ 1.0365
  generalize 2.0 * Real.pi * (j : ℝ) / 365.0 = τ
  have a1 := Real.neg_one_le_cos τ; have a2 := Real.cos_le_one τ
  have b1 := Real.neg_one_le_sin τ; have b2 := Real.sin_le_one τ
  have c1 := Real.neg_one_le_cos (2.0 * τ); have c2 := Real.cos_le_one (2.0 * τ)
  have d1 := Real.neg_one_le_sin (2.0 * τ); have d2 := Real.sin_le_one (2.0 * τ)
  generalize Real.cos τ = a at *; generalize Real.sin τ = b at *
  generalize Real.cos (2.0 * τ) = c at *; generalize Real.sin (2.0 * τ) = d at *
  norm_num
  constructor <;> linarith

theorem mem_mapM_ok {ι β : Type} {f : ι → M β} : ∀ {l : List ι} {bs : List β}, l.mapM f = .ok bs →
    ∀ b ∈ bs, ∃ a ∈ l, f a = .ok b := by
  intro l
  induction l with
  | nil => intro bs h b hb; rw [List.mapM_nil, pure_eq_ok] at h; subst h; cases hb
  | cons a l ih =>
    intro bs h b hb
    rw [List.mapM_cons, bind_eq_ok] at h
    obtain ⟨x, hx, h⟩ := h
    rw [bind_eq_ok] at h
    obtain ⟨xs, hxs, h⟩ := h
    rw [pure_eq_ok] at h; subst h
    rcases List.mem_cons.1 hb with rfl | hb
    · exact ⟨a, by simp, hx⟩
    · obtain ⟨a', h1, h2⟩ := ih hxs b hb
      exact ⟨a', by simp [h1], h2⟩

theorem pyGet_mem {β : Type} {xs : List β} {i : Int} {x : β} (h : pyGet xs i = .ok x) : x ∈ xs := by
  obtain ⟨k, _, hk⟩ := pyGet_eq_ok.1 h
  exact List.mem_of_getElem? hk

theorem solpars_eccentricity {lat : ℝ} {rows : List (SolRow ℝ)} (h : solpars lat = .ok rows) {row : SolRow ℝ}
    (hr : row ∈ rows) : 0 ≤ row.eccorr ∧ row.eccorr ≤ 1.0365 := by
  unfold solpars at h
  simp only [bind_eq_ok] at h
  obtain ⟨rs, h1, last, h2, h⟩ := h
  rw [pure_eq_ok] at h; subst h
  have : row ∈ rs := by
    rcases List.mem_append.1 hr with h | h
    · exact h
    · rw [List.mem_singleton.1 h]; exact pyGet_mem h2
  obtain ⟨j, _, hj⟩ := mem_mapM_ok h1 row this
  exact eccentricity hj

section
variable {α : Type} [Add α] [Sub α] [Mul α] [Div α] [Neg α] [LT α] [DecidableLT α] [BEq α] [Zero α] [NatCast α]
  [OfScientific α] [Transc α] [InvTrig α] [HasTrunc α]

/-- What the radiation of the cell in row `i` and column `j` is computed from: the cell itself, and the tables (which are
upside down) at the row that is `i` counted from the other end. -/
def ownCell (vapour : α → α → α → α) (g : RadGrids α) (ny : Nat) (illu : Nat → Nat → Option α) (i j : Nat) : RadCell α :=
  { t := g.t i j, p := g.p i j, vp := vapour (g.rh i j) (g.t i j) (g.p i j), cld := g.cld i j, elev := g.elev i j,
    slope := g.slope i j, aspect := g.aspect i j, mask := g.mask i j, svf := g.svf (ny - 1 - i) j,
    illu := illu (ny - 1 - i) j }

/-- **C77, rows (any arithmetic).** In the domain file every cell has the radiation computed from its own temperature,
pressure, humidity, clouds, elevation, slope and aspect, although the arrays are turned upside down twice. -/
theorem C77_rows {vapour : α → α → α → α} {rows : List (SolRow α)} {doy hour : Nat} {lat : α} {ny : Nat} {g : RadGrids α}
    {shad : List (Nat → Nat → Option α)} {step : Nat} {tcart : α} {out : Nat → Nat → Option α}
    (h : moelgRadiation vapour rows doy hour lat ny g shad step tcart = .ok out) :
    ∃ row illu, pyGet rows ((doy : Int) - 1) = .ok row ∧
      (0.01 < sinElev row.soldec lat (radHourAngle (step : α) (hour : α) row.tcorr tcart) →
        pyGet shad (lutRead step doy hour) = .ok illu) ∧
      ∀ i j, i < ny → out i j = radCell row.soldec row.eccorr lat (radHourAngle (step : α) (hour : α) row.tcorr tcart)
        (ownCell vapour g ny illu i j) := by
  unfold moelgRadiation calcRad at h
  rw [bind_eq_ok] at h
  obtain ⟨row, hrow, h⟩ := h
  have hown : ∀ (illu : Nat → Nat → Option α) (i j : Nat), i < ny →
      (g.flip ny).cell vapour illu (ny - 1 - i) j = ownCell vapour g ny illu i j := by
    intro illu i j hi
    have : ny - 1 - (ny - 1 - i) = i := by omega
    simp only [RadGrids.cell, RadGrids.flip, flipud, this, ownCell]
  simp only at h
  split_ifs at h with hs
  · rw [bind_eq_ok] at h
    obtain ⟨illu, hi, h⟩ := h
    rw [pure_eq_ok] at h
    subst h
    exact ⟨row, illu, hrow, fun _ => hi, fun i j hij => by rw [← hown illu i j hij]; rfl⟩
  · rw [pure_eq_ok] at h
    subst h
    exact ⟨row, fun _ _ => none, hrow, fun hc => absurd hc hs, fun i j hij => by rw [← hown _ i j hij]; rfl⟩

/-- **C77, sky view (any arithmetic).** The table of sky-view factors, built upside down, has at that row the factor of
the slope and aspect of the cell. -/
theorem C77_svf_rows {dem slope aspect : Nat → Nat → α} {mask : Nat → Nat → Bool} {lats lons : List α} {ny : Nat}
    {svf : Nat → Nat → Option α}
    (h : lutSvf (flipud ny dem) (flipud ny mask) (flipud ny slope) (flipud ny aspect) lats lons = .ok svf) {i j : Nat}
    (hi : i < ny) : (mask i j = true → ∃ shaded, svf (ny - 1 - i) j = some (skyViewFactor (slope i j) (aspect i j) shaded)) ∧
      (mask i j = false → svf (ny - 1 - i) j = none) := by
  unfold lutSvf at h
  rw [bind_eq_ok] at h
  obtain ⟨_, _, h⟩ := h
  rw [pure_eq_ok] at h
  subst h
  have : ny - 1 - (ny - 1 - i) = i := by omega
  constructor
  · intro hm
    simp only [flipud, this, hm, if_true]
    exact ⟨_, rfl⟩
  · intro hm
    simp only [flipud, this, hm]
    rfl

end

/-- **C77, domain.** In a domain with pressures up to 820 hPa every glacier cell gets, at every time, a value between 0 and
2834 W/m2 (twice the solar constant at perihelion): beam on the slope plus diffuse part. -/
theorem C77_domain {vapour : ℝ → ℝ → ℝ → ℝ} {rows : List (SolRow ℝ)} {doy hour : Nat} {lat : ℝ} {ny : Nat} {g : RadGrids ℝ}
    {shad : List (Nat → Nat → Option ℝ)} {step : Nat} {tcart : ℝ} {out : Nat → Nat → Option ℝ}
    (hrows : solpars lat = .ok rows) (h : moelgRadiation vapour rows doy hour lat ny g shad step tcart = .ok out) {i j : Nat}
    (hi : i < ny) (hm : g.mask i j = true) (hx : ∀ illu, SaneCell (ownCell vapour g ny illu i j)) :
    ∃ v, out i j = some v ∧ 0 ≤ v ∧ v ≤ 2834 := by
  obtain ⟨row, illu, hrow, -, hout⟩ := C77_rows h
  obtain ⟨e0, e1⟩ := solpars_eccentricity hrows (pyGet_mem hrow)
  rw [hout i j hi]
  generalize radHourAngle (step : ℝ) (hour : ℝ) row.tcorr tcart = stime
  rcases lt_or_ge 0.01 (sinElev row.soldec lat stime) with hs | hs
  · obtain ⟨v, hv, v0, v1⟩ := C77_range e0 hs (hx illu)
    refine ⟨v, hv, v0, v1.trans ?_⟩
    have z1 := (C77_geometry row.soldec lat stime (ownCell vapour g ny illu i j).slope
      (ownCell vapour g ny illu i j).aspect).2.1
    have z2 := (C77_geometry row.soldec lat stime 0 0).2
    have z3 : sinElev row.soldec lat stime ≤ 1 := z2.2 ▸ z2.1
    have z4 : max (cosZetap row.soldec lat stime (ownCell vapour g ny illu i j).slope
      (ownCell vapour g ny illu i j).aspect) 0 ≤ 1 := max_le z1 zero_le_one
    calc _ ≤ 1367 * row.eccorr * (1 + 1) := by gcongr
      _ ≤ 2834 := by norm_num at e1 ⊢; linarith
  · refine ⟨0, ?_, le_rfl, by norm_num⟩
    rw [C77_night hs]
    show (if g.mask i j then some (0 : ℝ) else none) = some 0
    rw [hm]; rfl

/-- Non-vacuity of `SaneCell`: half cloudy, 700 hPa, a slope of 20 degrees to the east. -/
example : SaneCell ⟨280, 700, 5, 1/2, 3000, 20, 90, true, some (9/10), some 1⟩ :=
  ⟨⟨by norm_num, by norm_num, by norm_num, by norm_num⟩, by norm_num, by norm_num, 9/10, rfl, by norm_num, by norm_num⟩

/-- Non-vacuity of the hypotheses on the sun: at noon at the equator at the equinox. -/
example : (0.01 : ℝ) < sinElev 0 0 0 := by
  show (0.01 : ℝ) < Real.sin 0 * Real.sin (0 * Real.pi / 180.0) + Real.cos 0 * Real.cos (0 * Real.pi / 180.0) * Real.cos (0 * Real.pi / 180.0)
  simp; norm_num

/-- Non-vacuity of `C77_shade` and `C77_clouds`: a shaded cell under half a cover of clouds. -/
example : ∃ y, dayCell (0 : ℝ) 1 0 0 ⟨280, 700, 5, 1/2, 3000, 20, 90, true, some (9/10), some 0⟩ = some y :=
  ⟨_, C77_shade (v := 9/10) (.inl rfl) rfl (by norm_num)⟩

end Cosipy
