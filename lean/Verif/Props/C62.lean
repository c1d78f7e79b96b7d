import Verif.Lemmas.RadCor
import Verif.Props.C56

/-!
# C62 Position of the sun

Over the real numbers, for `solarFParallel`. The position is computed for every latitude but the poles (`C62_elevation_partial`),
the elevation is right for the given hour angle, highest at noon and the same before and after noon. But the hour angle is
15° per hour from clock noon: longitude, time zone and the equation of time cancel out (`C62_longitude`), and the azimuth is
not 0 at noon (`C62_noon_refuted`): the division by cos(latitude) and the factor sin(zenith) stand outside the inverse cosine.
-/

set_option autoImplicit false
set_option linter.unusedSectionVars false

namespace Cosipy
open RadCor

/-- Degrees to radians as the function does it. -/
noncomputable def phi (lat : ℝ) : ℝ := lat * (Real.pi / 180)

/-- Sine of the declination used for a day. -/
noncomputable def sinDec (day : ℝ) : ℝ := sinDeclination day

/-- Sine of the elevation of the sun on the celestial sphere: latitude, declination, hour angle. -/
noncomputable def sinElevation (lat dec hourAngle : ℝ) : ℝ :=
  Real.sin lat * Real.sin dec + Real.cos lat * Real.cos dec * Real.cos hourAngle

theorem fac_eq : (fac : ℝ) = Real.pi / 180 := by
  have e180 : (180.0 : ℝ) = 180 := by norm_num
  unfold fac; rw [e180]; rfl

theorem sinDec_bound (day : ℝ) : |sinDec day| ≤ 0.39785 := by
  unfold sinDec sinDeclination
  rw [abs_mul]
  have h1 : |(0.39785 : ℝ)| = 0.39785 := abs_of_pos (by norm_num)
  rw [h1]
  have h2 : |(Transc.sin ((278.97 + 0.9856 * day + 1.9165 * Transc.sin ((356.6 + 0.9856 * day) * fac)) * fac) : ℝ)| ≤ 1 :=
    Real.abs_sin_le_one _
  have h0 : (0 : ℝ) ≤ 0.39785 := by norm_num
  nlinarith

/-- The declination used for a day: below 23.5° in size. -/
noncomputable def declination (day : ℝ) : ℝ := Real.arcsin (sinDec day)

theorem sin_declination (day : ℝ) : Real.sin (declination day) = sinDec day := by
  have h := abs_le.1 (sinDec_bound day)
  unfold declination
  apply Real.sin_arcsin <;> norm_num at * <;> linarith [h.1, h.2]

theorem cos_declination_pos (day : ℝ) : 0 < Real.cos (declination day) := by
  have h := abs_le.1 (sinDec_bound day)
  unfold declination
  rw [Real.cos_arcsin]
  apply Real.sqrt_pos.2
  have : (0.39785 : ℝ) ≤ 0.4 := by norm_num
  have : (0.4 : ℝ) = 2 / 5 := by norm_num
  nlinarith [h.1, h.2]

/-- The number handed to the inverse cosine. -/
theorem azimuth_arg (φ δ h : ℝ) : Real.sin φ * sinElevation φ δ h - Real.sin δ
    = Real.cos φ * (Real.sin φ * Real.cos δ * Real.cos h - Real.cos φ * Real.sin δ) := by
  unfold sinElevation
  have := Real.sin_sq_add_cos_sq φ
  linear_combination Real.sin δ * this

theorem azimuth_arg_bound (φ δ h : ℝ) : |Real.sin φ * sinElevation φ δ h - Real.sin δ| ≤ 1 := by
  rw [azimuth_arg, abs_mul]
  have h1 := Real.abs_cos_le_one φ
  have h2 : |Real.sin φ * Real.cos δ * Real.cos h - Real.cos φ * Real.sin δ| ≤ 1 := by
    have b := sphere_bound (φ + Real.pi / 2) δ h
    rw [Real.sin_add_pi_div_two, Real.cos_add_pi_div_two] at b
    rw [abs_le]
    constructor <;> linarith [b.1, b.2]
  have := abs_nonneg (Real.cos φ)
  have := abs_nonneg (Real.sin φ * Real.cos δ * Real.cos h - Real.cos φ * Real.sin δ)
  nlinarith

/-- The hour angle in use: 15° per hour from twelve o'clock. -/
noncomputable def clockAngle (hour : ℝ) : ℝ := 15 * (Real.pi / 180) * (hour - 12)

/-- What the function answers, in closed form. -/
theorem solarF_eq {lat lon tz day hour : ℝ} (h : Real.cos (phi lat) ≠ 0) :
    solarFParallel lat lon tz day hour = .ok
      (Real.arcsin (sinElevation (phi lat) (declination day) (clockAngle hour)),
       Real.pi / 2 - Real.arcsin (sinElevation (phi lat) (declination day) (clockAngle hour)),
       (if hour < 12 then -1 else 1) *
        (Real.arccos (Real.sin (phi lat) * sinElevation (phi lat) (declination day) (clockAngle hour)
            - Real.sin (declination day))
          / Real.cos (phi lat)
          * Real.cos (Real.arcsin (sinElevation (phi lat) (declination day) (clockAngle hour))))) := by
  have e2 : (2.0 : ℝ) = 2 := by norm_num
  have e12 : (12.0 : ℝ) = 12 := by norm_num
  have e15 : (15.0 : ℝ) = 15 := by norm_num
  have e1 : (1.0 : ℝ) = 1 := by norm_num
  unfold solarFParallel
  have hd := abs_le.1 (sinDec_bound day)
  rw [show pyAsin (sinDeclination day : ℝ) = .ok (declination day) from
    pyAsin_ok (by have := hd.1; unfold sinDec at this; norm_num at *; linarith)
      (by have := hd.2; unfold sinDec at this; norm_num at *; linarith), ok_bind]
  simp only [fac_eq, e2, e12, e15, e1]
  have hb := sphere_bound (phi lat) (declination day) (clockAngle hour)
  have harg : (Transc.sin (lat * (Real.pi / 180)) * Transc.sin (declination day)
      + Transc.cos (lat * (Real.pi / 180)) * Transc.cos (declination day)
        * Transc.cos (15 * (Real.pi / 180) * (hour - (tz - lon) / 15 - timeEq day - (12 - (tz - lon) / 15 - timeEq day))) : ℝ)
      = sinElevation (phi lat) (declination day) (clockAngle hour) := by
    unfold sinElevation phi clockAngle
    simp only [Transc.sin, Transc.cos]
    congr 3
    ring
  rw [harg, show pyAsin (sinElevation (phi lat) (declination day) (clockAngle hour)) = .ok _ from
    pyAsin_ok hb.1 hb.2, ok_bind]
  have hs : Real.sin (Real.arcsin (sinElevation (phi lat) (declination day) (clockAngle hour)))
      = sinElevation (phi lat) (declination day) (clockAngle hour) := Real.sin_arcsin hb.1 hb.2
  have hcz : (Transc.cos (Transc.pi / 2 - Real.arcsin (sinElevation (phi lat) (declination day) (clockAngle hour))) : ℝ)
      = sinElevation (phi lat) (declination day) (clockAngle hour) := by
    show Real.cos (Real.pi / 2 - _) = _
    rw [Real.cos_pi_div_two_sub, hs]
  have hsz : (Transc.sin (Transc.pi / 2 - Real.arcsin (sinElevation (phi lat) (declination day) (clockAngle hour))) : ℝ)
      = Real.cos (Real.arcsin (sinElevation (phi lat) (declination day) (clockAngle hour))) := by
    show Real.sin (Real.pi / 2 - _) = _
    rw [Real.sin_pi_div_two_sub]
  rw [hcz]
  have ha := abs_le.1 (azimuth_arg_bound (phi lat) (declination day) (clockAngle hour))
  rw [show pyAcos (Transc.sin (lat * (Real.pi / 180)) * sinElevation (phi lat) (declination day) (clockAngle hour)
      - Transc.sin (declination day) : ℝ) = .ok (Real.arccos (Real.sin (phi lat)
        * sinElevation (phi lat) (declination day) (clockAngle hour) - Real.sin (declination day))) from
    pyAcos_ok ha.1 ha.2, ok_bind]
  rw [show (Transc.cos (lat * (Real.pi / 180)) : ℝ) = Real.cos (phi lat) from rfl, fdiv_of_ne h, ok_bind, hsz]
  show Except.ok _ = _
  congr 3
  by_cases hh : hour < 12
  · rw [if_pos (by linarith), if_pos hh]; ring
  · rw [if_neg (by intro h'; linarith), if_neg hh]; ring

/-- At the poles (cosine of the latitude zero) the function raises ZeroDivisionError. -/
theorem C62_pole {lat lon tz day hour : ℝ} (h : Real.cos (phi lat) = 0) :
    solarFParallel lat lon tz day hour = .error .zeroDiv := by
  have e2 : (2.0 : ℝ) = 2 := by norm_num
  have e12 : (12.0 : ℝ) = 12 := by norm_num
  have e15 : (15.0 : ℝ) = 15 := by norm_num
  unfold solarFParallel
  have hd := abs_le.1 (sinDec_bound day)
  rw [show pyAsin (sinDeclination day : ℝ) = .ok (declination day) from
    pyAsin_ok (by have := hd.1; unfold sinDec at this; norm_num at *; linarith)
      (by have := hd.2; unfold sinDec at this; norm_num at *; linarith), ok_bind]
  simp only [fac_eq, e2, e12, e15]
  set ha : ℝ := 15 * (Real.pi / 180) * (hour - (tz - lon) / 15 - timeEq day - (12 - (tz - lon) / 15 - timeEq day))
  have hb := sphere_bound (phi lat) (declination day) ha
  rw [show pyAsin (Transc.sin (lat * (Real.pi / 180)) * Transc.sin (declination day)
      + Transc.cos (lat * (Real.pi / 180)) * Transc.cos (declination day) * Transc.cos ha : ℝ)
      = .ok (Real.arcsin (sinElevation (phi lat) (declination day) ha)) from pyAsin_ok hb.1 hb.2, ok_bind]
  have hs : Real.sin (Real.arcsin (sinElevation (phi lat) (declination day) ha)) = sinElevation (phi lat) (declination day) ha :=
    Real.sin_arcsin hb.1 hb.2
  have hc : (Transc.cos (Transc.pi / 2 - Real.arcsin (sinElevation (phi lat) (declination day) ha)) : ℝ)
      = sinElevation (phi lat) (declination day) ha := by
    show Real.cos (Real.pi / 2 - _) = _
    rw [Real.cos_pi_div_two_sub]; exact hs
  have hx := abs_le.1 (azimuth_arg_bound (phi lat) (declination day) ha)
  rw [hc, show pyAcos (Transc.sin (lat * (Real.pi / 180)) * sinElevation (phi lat) (declination day) ha
      - Transc.sin (declination day) : ℝ) = .ok _ from pyAcos_ok hx.1 hx.2, ok_bind]
  rw [show (Transc.cos (lat * (Real.pi / 180)) : ℝ) = 0 from h]
  unfold fdiv
  rw [if_pos (by simp), error_bind]

/-- **C62, elevation.** For every latitude but the poles, every day and hour, the position is computed; elevation and zenith
angle add up to a right angle, and the sine of the elevation is that of the sun at the declination of the day and an hour
angle of 15° per hour from twelve o'clock. Missing: the hour angle must count from solar noon at the place, and the azimuth;
both are false (`C62_longitude`, `C62_noon_refuted`). -/
theorem C62_elevation_partial {lat day hour : ℝ} (lon tz : ℝ) (h : Real.cos (phi lat) ≠ 0) :
    ∃ beta zeni azi, solarFParallel lat lon tz day hour = .ok (beta, zeni, azi) ∧
      -(Real.pi / 2) ≤ beta ∧ beta ≤ Real.pi / 2 ∧ beta + zeni = Real.pi / 2 ∧
      Real.sin beta = sinElevation (phi lat) (declination day) (clockAngle hour) := by
  refine ⟨_, _, _, solarF_eq h, Real.neg_pi_div_two_le_arcsin _, Real.arcsin_le_pi_div_two _, by ring, ?_⟩
  have hb := sphere_bound (phi lat) (declination day) (clockAngle hour)
  exact Real.sin_arcsin hb.1 hb.2

/-- The sun is never higher than at twelve o'clock. -/
theorem C62_noon_highest {lat lon tz day hour b b' z z' a a' : ℝ} (h : 0 < Real.cos (phi lat))
    (h1 : solarFParallel lat lon tz day hour = .ok (b, z, a)) (h2 : solarFParallel lat lon tz day 12 = .ok (b', z', a')) :
    b ≤ b' := by
  rw [solarF_eq h.ne', ok_inj] at h1 h2
  have e1 := congrArg Prod.fst h1
  have e2 := congrArg Prod.fst h2
  simp only at e1 e2
  subst e1; subst e2
  apply Real.monotone_arcsin
  unfold sinElevation clockAngle
  have hc := Real.cos_le_one (15 * (Real.pi / 180) * (hour - 12))
  have hd := cos_declination_pos day
  rw [sub_self, mul_zero, Real.cos_zero]
  have : 0 < Real.cos (phi lat) * Real.cos (declination day) := by positivity
  nlinarith

/-- Hours before and after twelve give the same elevation and opposite azimuths. -/
theorem C62_mirror {lat day x : ℝ} (lon tz : ℝ) (h : Real.cos (phi lat) ≠ 0) (hx : 0 < x) :
    ∃ b z a, solarFParallel lat lon tz day (12 + x) = .ok (b, z, a) ∧ solarFParallel lat lon tz day (12 - x) = .ok (b, z, -a) := by
  have e : sinElevation (phi lat) (declination day) (clockAngle (12 - x))
      = sinElevation (phi lat) (declination day) (clockAngle (12 + x)) := by
    unfold sinElevation clockAngle
    rw [show 15 * (Real.pi / 180) * (12 - x - 12) = -(15 * (Real.pi / 180) * (12 + x - 12)) by ring, Real.cos_neg]
  refine ⟨_, _, _, solarF_eq h, ?_⟩
  rw [solarF_eq h, e, if_pos (show 12 - x < 12 by linarith), if_neg (show ¬ 12 + x < 12 by linarith)]
  congr 3
  ring

/-- **C62 refuted, solar noon.** Longitude and time zone have no influence: two places on the same latitude see the sun at
the same position at every hour, wherever they are, because the corrections cancel. -/
theorem C62_longitude {lat day hour : ℝ} (lon lon' tz tz' : ℝ) :
    solarFParallel lat lon tz day hour = solarFParallel lat lon' tz' day hour := by
  by_cases h : Real.cos (phi lat) = 0
  · rw [C62_pole h, C62_pole h]
  · rw [solarF_eq h, solarF_eq h]

/-- Hence the corrected radiation does not depend on them either. -/
theorem C62_site {lat doy hour slope aspect rm thld : ℝ} (lon lon' tz tz' : ℝ) :
    correctRadiation lat lon tz doy hour slope aspect rm thld = correctRadiation lat lon' tz' doy hour slope aspect rm thld := by
  unfold correctRadiation
  rw [C62_longitude lon lon' tz tz']

/-- **C62 refuted, azimuth.** At twelve o'clock the azimuth must be 0 (south), by the function's own convention of negative
mornings. It is positive for every latitude between the poles and every day, unless the sun stands in the zenith. -/
theorem C62_noon_refuted {lat lon tz day : ℝ} (h : 0 < Real.cos (phi lat)) :
    ∃ b z a, solarFParallel lat lon tz day 12 = .ok (b, z, a) ∧ (b ≠ Real.pi / 2 → b ≠ -(Real.pi / 2) → 0 < a) := by
  refine ⟨_, _, _, solarF_eq h.ne', fun hb hb' => ?_⟩
  rw [if_neg (lt_irrefl _), one_mul]
  have hl := Real.neg_pi_div_two_le_arcsin (sinElevation (phi lat) (declination day) (clockAngle 12))
  have hu := Real.arcsin_le_pi_div_two (sinElevation (phi lat) (declination day) (clockAngle 12))
  have h1 : 0 < Real.cos (Real.arcsin (sinElevation (phi lat) (declination day) (clockAngle 12))) :=
    Real.cos_pos_of_mem_Ioo ⟨lt_of_le_of_ne hl (Ne.symm hb'), lt_of_le_of_ne hu hb⟩
  have h2 : 0 < Real.arccos (Real.sin (phi lat) * sinElevation (phi lat) (declination day) (clockAngle 12)
      - Real.sin (declination day)) := by
    rw [Real.arccos_pos]
    have hd := sin_declination day
    have hs := abs_le.1 (sinDec_bound day)
    have hb := sphere_bound (phi lat) (declination day) (clockAngle 12)
    rw [azimuth_arg]
    have e0 : Real.cos (clockAngle 12) = 1 := by unfold clockAngle; simp
    rw [e0, mul_one, ← Real.sin_sub]
    -- cos φ sin(φ - δ) = 1 needs cos φ = 1 and sin(φ - δ) = 1, that is sin φ = 0 and - sin δ = 1
    have hc := Real.cos_le_one (phi lat)
    have hsl := Real.sin_le_one (phi lat - declination day)
    rcases lt_or_eq_of_le hc with hlt | heq
    · rcases le_or_gt (Real.sin (phi lat - declination day)) 0 with hn | hp
      · nlinarith
      · nlinarith
    · have hs0 : Real.sin (phi lat) = 0 := by
        have := Real.sin_sq_add_cos_sq (phi lat)
        rw [heq] at this
        nlinarith
      rw [Real.sin_sub, heq, hs0, zero_mul, hd]
      norm_num at *
      linarith [hs.1]
  positivity

/-- The convention the previous theorem refers to: the function counts azimuths negative before and positive after twelve
o'clock. -/
theorem C62_sign {lat lon tz day hour b z a : ℝ} (h : 0 < Real.cos (phi lat))
    (hr : solarFParallel lat lon tz day hour = .ok (b, z, a)) : (hour < 12 → a ≤ 0) ∧ (12 ≤ hour → 0 ≤ a) := by
  rw [solarF_eq h.ne', ok_inj] at hr
  have e3 := congrArg (fun p => p.2.2) hr
  simp only at e3
  subst e3
  have h1 : 0 ≤ Real.cos (Real.arcsin (sinElevation (phi lat) (declination day) (clockAngle hour))) := Real.cos_arcsin_nonneg _
  have h2 := Real.arccos_nonneg (Real.sin (phi lat) * sinElevation (phi lat) (declination day) (clockAngle hour)
      - Real.sin (declination day))
  have h3 : 0 ≤ Real.arccos (Real.sin (phi lat) * sinElevation (phi lat) (declination day) (clockAngle hour)
      - Real.sin (declination day)) / Real.cos (phi lat)
      * Real.cos (Real.arcsin (sinElevation (phi lat) (declination day) (clockAngle hour))) := by positivity
  constructor
  · intro hh; rw [if_pos hh]; linarith
  · intro hh; rw [if_neg (not_lt.2 hh)]; linarith

/-- What the corrected radiation is made of: the position found above enters the slope correction of C56 (zenith angle and azimuth in their
places), for every hour but that of the sun on the horizon. -/
theorem C62_corrected {lat lon tz doy hour slope aspect rm thld : ℝ} (h : Real.cos (phi lat) ≠ 0) :
    ∃ b z a, solarFParallel lat lon tz doy hour = .ok (b, z, a) ∧ b + z = Real.pi / 2 ∧
      (Real.cos z ≠ 0 → correctRadiation lat lon tz doy hour slope aspect rm thld =
        .ok (rm * (1 - diffuseUsed doy z rm thld) * beamFactor z a slope aspect + rm * diffuseUsed doy z rm thld)) := by
  obtain ⟨b, z, a, e, -, -, hz, -⟩ := C62_elevation_partial (day := doy) (hour := hour) lon tz h
  refine ⟨b, z, a, e, hz, fun hc => ?_⟩
  unfold correctRadiation
  rw [e, ok_bind]
  exact C56_formula hc

/-- **C62, low sun.** When the sun stands lower than the threshold allows, at the true elevation for the hour angle, slope and aspect do not
change the radiation. -/
theorem C62_low_sun {lat lon tz doy hour slope aspect rm thld : ℝ} (h : Real.cos (phi lat) ≠ 0)
    (h0 : sinElevation (phi lat) (declination doy) (clockAngle hour) ≠ 0)
    (hl : Real.arcsin (sinElevation (phi lat) (declination doy) (clockAngle hour)) < Real.pi / 2 - thld * Real.pi / 180) :
    correctRadiation lat lon tz doy hour slope aspect rm thld = .ok rm := by
  have hb := sphere_bound (phi lat) (declination doy) (clockAngle hour)
  obtain ⟨b, z, a, e, h1, h2, hz, hs⟩ := C62_elevation_partial (day := doy) (hour := hour) lon tz h
  have eb : b = Real.arcsin (sinElevation (phi lat) (declination doy) (clockAngle hour)) := by
    rw [← hs, Real.arcsin_sin h1 h2]
  have ez : z = Real.pi / 2 - b := by linarith
  unfold correctRadiation
  rw [e, ok_bind]
  refine C56_threshold ?_ ?_
  · rw [ez, Real.cos_pi_div_two_sub, hs]; exact h0
  · rw [ez, eb]; linarith

/-! Examples: the equator and 60° north. -/

example : 0 < Real.cos (phi 0) := by unfold phi; rw [zero_mul, Real.cos_zero]; norm_num

example : 0 < Real.cos (phi 60) := by
  unfold phi
  rw [show (60 : ℝ) * (Real.pi / 180) = Real.pi / 3 by ring, Real.cos_pi_div_three]; norm_num

example : Real.cos (phi 90) = 0 := by
  unfold phi
  rw [show (90 : ℝ) * (Real.pi / 180) = Real.pi / 2 by ring, Real.cos_pi_div_two]

/-- At 60° north the sun never stands in the zenith: the azimuth at noon is wrong on every day. -/
example (lon tz day : ℝ) : ∃ b z a, solarFParallel 60 lon tz day 12 = .ok (b, z, a) ∧ 0 < a := by
  have hc : Real.cos (phi 60) = 1 / 2 := by
    unfold phi; rw [show (60 : ℝ) * (Real.pi / 180) = Real.pi / 3 by ring, Real.cos_pi_div_three]
  have h60 : 0 < Real.cos (phi 60) := by rw [hc]; norm_num
  obtain ⟨b, z, a, hr, ha⟩ := C62_noon_refuted (lat := 60) (lon := lon) (tz := tz) (day := day) h60
  refine ⟨b, z, a, hr, ha ?_ ?_⟩ <;>
  · intro hb
    rw [solarF_eq h60.ne', ok_inj] at hr
    have e1 := congrArg Prod.fst hr
    simp only at e1
    rw [hb] at e1
    have hs := congrArg Real.sin e1
    have hbd := sphere_bound (phi 60) (declination day) (clockAngle 12)
    rw [show Real.sin (Real.arcsin (sinElevation (phi 60) (declination day) (clockAngle 12)))
      = sinElevation (phi 60) (declination day) (clockAngle 12) from Real.sin_arcsin hbd.1 hbd.2] at hs
    unfold sinElevation at hs
    rw [sin_declination, hc] at hs
    have k1 : |Real.sin (phi 60) * sinDec day| ≤ 0.39785 := by
      rw [abs_mul]
      have := sinDec_bound day
      have := Real.abs_sin_le_one (phi 60)
      have := abs_nonneg (sinDec day)
      nlinarith [abs_nonneg (Real.sin (phi 60))]
    have k2 : |1 / 2 * Real.cos (declination day) * Real.cos (clockAngle 12)| ≤ 1 / 2 := by
      rw [abs_mul, abs_mul, abs_of_pos (by norm_num : (0 : ℝ) < 1 / 2)]
      have := Real.abs_cos_le_one (declination day)
      have := Real.abs_cos_le_one (clockAngle 12)
      have := abs_nonneg (Real.cos (declination day))
      have := abs_nonneg (Real.cos (clockAngle 12))
      nlinarith
    have k1' := abs_le.1 k1
    have k2' := abs_le.1 k2
    try rw [Real.sin_neg] at hs
    rw [Real.sin_pi_div_two] at hs
    norm_num at *
    linarith [k1'.1, k1'.2, k2'.1, k2'.2]

/-- Midnight at the equator: the sun is below the horizon, and with a threshold of 90° the radiation is what was measured. -/
example (lon tz day slope aspect rm : ℝ) : correctRadiation 0 lon tz day 0 slope aspect rm 90 = .ok rm := by
  have e : sinElevation (phi 0) (declination day) (clockAngle 0) = -Real.cos (declination day) := by
    unfold sinElevation phi clockAngle
    rw [show 15 * (Real.pi / 180) * (0 - 12) = -Real.pi by ring, Real.cos_neg, Real.cos_pi, zero_mul, Real.sin_zero, Real.cos_zero]; ring
  have hd : 0 < Real.cos (declination day) := by
    have h1 := sinDec_bound day
    rw [← sin_declination] at h1
    have h2 : 0 ≤ Real.cos (declination day) := Real.cos_arcsin_nonneg _
    rcases h2.lt_or_eq with h2 | h2
    · exact h2
    · have := Real.sin_sq_add_cos_sq (declination day)
      rw [← h2] at this
      have k := abs_le.1 h1
      norm_num at k
      nlinarith [k.1, k.2]
  apply C62_low_sun
  · unfold phi; rw [zero_mul, Real.cos_zero]; norm_num
  · rw [e]; linarith
  · rw [e, Real.arcsin_neg, show Real.pi / 2 - 90 * Real.pi / 180 = 0 by ring]
    have := Real.arcsin_pos.2 hd
    linarith

end Cosipy
