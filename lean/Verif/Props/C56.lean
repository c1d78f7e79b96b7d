import Verif.Lemmas.RadCor
import Mathlib.Geometry.Euclidean.Angle.Unoriented.TriangleInequality
import Mathlib.Analysis.InnerProductSpace.PiL2

/-!
# C56 Radiation correction is the identity on flat ground

Over the real numbers. Flat ground keeps the measured radiation (`C56_flat`), the diffuse fraction lies in [0.2465, 1)
(`C56_diffuse`), and the distance is the great-circle distance (`C56_haversine`): symmetric, zero for equal points, with the
triangle inequality. "Never negative" is false for the function itself (`C56_refuted`): it holds when the sun is in front of
the slope (`C56_nonneg_partial`); the caller clamps at zero (C53).
-/

set_option autoImplicit false
set_option linter.unusedSectionVars false

namespace Cosipy
open RadCor

/-- Radiation at the top of the atmosphere on a horizontal plane. -/
noncomputable def toa (doy zeni : ℝ) : ℝ := 1367 * (1 + 0.033 * Real.cos (2 * Real.pi * doy / 366)) * Real.cos zeni

/-- The empirical curve of the diffuse fraction against the clearness index. -/
noncomputable def diffuseCurve (ci : ℝ) : ℝ :=
  if 50 < ci then 0.2465 else Real.exp (-Real.exp (0.1001 - (4.7930 - 9.4758 * ci))) * (1 - 0.2465) + 0.2465

theorem toa_ne {doy zeni : ℝ} (h : Real.cos zeni ≠ 0) : toa doy zeni ≠ 0 := by
  unfold toa
  have := Real.neg_one_le_cos (2 * Real.pi * doy / 366)
  have h1 : (1 + 0.033 * Real.cos (2 * Real.pi * doy / 366)) ≠ 0 := by
    have : (0 : ℝ) < 1 + 0.033 * Real.cos (2 * Real.pi * doy / 366) := by norm_num at *; linarith
    exact this.ne'
  exact mul_ne_zero (mul_ne_zero (by norm_num) h1) h

theorem toa_pos {doy zeni : ℝ} (h : 0 < Real.cos zeni) : 0 < toa doy zeni := by
  unfold toa
  have := Real.neg_one_le_cos (2 * Real.pi * doy / 366)
  have h1 : (0 : ℝ) < 1 + 0.033 * Real.cos (2 * Real.pi * doy / 366) := by norm_num at *; linarith
  positivity

theorem toa_le {doy zeni : ℝ} (h : 0 ≤ Real.cos zeni) : toa doy zeni ≤ 1367 * 1.033 * Real.cos zeni := by
  unfold toa
  have := Real.cos_le_one (2 * Real.pi * doy / 366)
  apply mul_le_mul_of_nonneg_right _ h
  apply mul_le_mul_of_nonneg_left _ (by norm_num)
  norm_num at *; linarith

theorem fdif_eq {doy zeni rg : ℝ} (h : Real.cos zeni ≠ 0) :
    fdifNeustift doy zeni rg = .ok (diffuseCurve (rg / toa doy zeni)) := by
  have hso : (1367.0 * (1.0 + 0.033 * Transc.cos (2.0 * Transc.pi * doy / 366.0)) * Transc.cos zeni : ℝ) = toa doy zeni := by
    unfold toa
    simp only [Transc.cos, Transc.pi]
    norm_num
  unfold fdifNeustift
  simp only [hso]
  rw [fdiv_of_ne (toa_ne h), ok_bind]
  unfold diffuseCurve
  have e50 : (50.0 : ℝ) = 50 := by norm_num
  have e1 : (1.0 : ℝ) = 1 := by norm_num
  rw [e50, e1]
  split_ifs <;> rfl

theorem fdif_error {doy zeni rg : ℝ} (h : Real.cos zeni = 0) : fdifNeustift doy zeni rg = .error .zeroDiv := by
  have hso : (1367.0 * (1.0 + 0.033 * Transc.cos (2.0 * Transc.pi * doy / 366.0)) * Transc.cos zeni : ℝ) = 0 := by
    simp only [Transc.cos] at *
    rw [h, mul_zero]
  unfold fdifNeustift
  simp only [hso]
  have : fdiv rg (0 : ℝ) = .error .zeroDiv := by unfold fdiv; rw [if_pos (by simp)]
  rw [this, error_bind]

theorem diffuseCurve_bounds (ci : ℝ) : 0.2465 ≤ diffuseCurve ci ∧ diffuseCurve ci < 1 := by
  unfold diffuseCurve
  split_ifs
  · norm_num
  · have h1 := Real.exp_pos (0.1001 - (4.7930 - 9.4758 * ci))
    have h2 := Real.exp_pos (-Real.exp (0.1001 - (4.7930 - 9.4758 * ci)))
    have h3 : Real.exp (-Real.exp (0.1001 - (4.7930 - 9.4758 * ci))) < 1 := by
      rw [← Real.exp_zero]; exact Real.exp_lt_exp.2 (by linarith)
    generalize Real.exp (-Real.exp (0.1001 - (4.7930 - 9.4758 * ci))) = y at *
    constructor <;> norm_num at * <;> nlinarith

/-- **C56, diffuse fraction.** Whenever it is computed it lies in [0.2465, 1), and it is computed for every position of the
sun but the horizon. -/
theorem C56_diffuse {doy zeni rg : ℝ} (h : Real.cos zeni ≠ 0) :
    ∃ f, fdifNeustift doy zeni rg = .ok f ∧ 0.2465 ≤ f ∧ f < 1 :=
  ⟨_, fdif_eq h, diffuseCurve_bounds _⟩

/-- The clearer the sky, the smaller the diffuse fraction. -/
theorem C56_diffuse_antitone {doy zeni r r' f f' : ℝ} (hz : 0 < Real.cos zeni) (hr : r ≤ r')
    (h : fdifNeustift doy zeni r = .ok f) (h' : fdifNeustift doy zeni r' = .ok f') : f' ≤ f := by
  rw [fdif_eq hz.ne', ok_inj] at h h'
  subst h; subst h'
  have hc : r / toa doy zeni ≤ r' / toa doy zeni := div_le_div_of_nonneg_right hr (toa_pos hz).le
  generalize r / toa doy zeni = c at *
  generalize r' / toa doy zeni = c' at *
  by_cases hc' : 50 < c'
  · rw [show diffuseCurve c' = 0.2465 by unfold diffuseCurve; rw [if_pos hc']]
    exact (diffuseCurve_bounds c).1
  · have hc0 : ¬ 50 < c := fun hh => hc' (lt_of_lt_of_le hh hc)
    unfold diffuseCurve
    rw [if_neg hc', if_neg hc0]
    have : Real.exp (-Real.exp (0.1001 - (4.7930 - 9.4758 * c'))) ≤ Real.exp (-Real.exp (0.1001 - (4.7930 - 9.4758 * c))) := by
      apply Real.exp_le_exp.2
      apply neg_le_neg
      apply Real.exp_le_exp.2
      norm_num at *; linarith
    have h0 : (0 : ℝ) ≤ 1 - 0.2465 := by norm_num
    nlinarith

/-- The beam factor: cosine of the angle between sun and slope normal over the cosine of the zenith angle. -/
noncomputable def beamFactor (zeni azi slope aspect : ℝ) : ℝ :=
  (Real.cos zeni * Real.cos (slope * (Real.pi / 180))
    + Real.sin zeni * Real.sin (slope * (Real.pi / 180)) * Real.cos (azi - aspect * (Real.pi / 180))) / Real.cos zeni

/-- The diffuse fraction in use: 1 when the sun is below the threshold. -/
noncomputable def diffuseUsed (doy zeni rm thld : ℝ) : ℝ :=
  if thld * Real.pi / 180 < zeni then 1 else diffuseCurve (rm / toa doy zeni)

/-- What the correction computes: the beam part times the factor plus the diffuse part. -/
theorem C56_formula {doy zeni azi slope aspect rm thld : ℝ} (h : Real.cos zeni ≠ 0) :
    radCor2D doy zeni azi slope aspect rm thld
      = .ok (rm * (1 - diffuseUsed doy zeni rm thld) * beamFactor zeni azi slope aspect
          + rm * diffuseUsed doy zeni rm thld) := by
  unfold radCor2D
  rw [fdif_eq h, ok_bind]
  have e1 : (1.0 : ℝ) = 1 := by norm_num
  have e180 : (180.0 : ℝ) = 180 := by norm_num
  have hf : (fac : ℝ) = Real.pi / 180 := by unfold fac; rw [e180]; rfl
  have hr : radians thld = thld * Real.pi / 180 := by unfold radians; rw [e180]; rfl
  simp only [hf, hr, e1]
  show (fdiv (Real.cos zeni * Real.cos _ + _) (Real.cos zeni) >>= _) = _
  rw [fdiv_of_ne h, ok_bind]
  rfl

/-- **C56, flat ground.** With zero slope the result is the measured radiation, for every position of the sun except exactly
on the horizon, every aspect, day, radiation and threshold. -/
theorem C56_flat {doy zeni azi aspect rm thld : ℝ} (h : Real.cos zeni ≠ 0) :
    radCor2D doy zeni azi 0 aspect rm thld = .ok rm := by
  rw [C56_formula h]
  have : beamFactor zeni azi 0 aspect = 1 := by
    unfold beamFactor
    rw [zero_mul, Real.cos_zero, Real.sin_zero]
    field_simp
    ring
  rw [this]
  congr 1
  ring

/-- With the sun exactly on the horizon the correction raises ZeroDivisionError, on flat ground too. -/
theorem C56_horizon {doy zeni azi slope aspect rm thld : ℝ} (h : Real.cos zeni = 0) :
    radCor2D doy zeni azi slope aspect rm thld = .error .zeroDiv := by
  unfold radCor2D
  rw [fdif_error h, error_bind]

/-- Below the zenith threshold all radiation counts as diffuse and no slope changes it. -/
theorem C56_threshold {doy zeni azi slope aspect rm thld : ℝ} (h : Real.cos zeni ≠ 0)
    (ht : thld * Real.pi / 180 < zeni) : radCor2D doy zeni azi slope aspect rm thld = .ok rm := by
  rw [C56_formula h, diffuseUsed, if_pos ht]
  congr 1; ring

theorem diffuseUsed_bounds (doy zeni rm thld : ℝ) :
    0 ≤ diffuseUsed doy zeni rm thld ∧ diffuseUsed doy zeni rm thld ≤ 1 := by
  unfold diffuseUsed
  split_ifs
  · norm_num
  · have := diffuseCurve_bounds (rm / toa doy zeni)
    constructor <;> norm_num at * <;> linarith

/-- **C56, never negative.** Holds when the sun is above the horizon and in front of the slope. Missing: a slope facing away
from the sun, where it is false (`C56_refuted`). -/
theorem C56_nonneg_partial {doy zeni azi slope aspect rm thld r : ℝ} (h : 0 < Real.cos zeni) (hrm : 0 ≤ rm)
    (hf : 0 ≤ beamFactor zeni azi slope aspect) (hr : radCor2D doy zeni azi slope aspect rm thld = .ok r) : 0 ≤ r := by
  rw [C56_formula h.ne', ok_inj] at hr
  subst hr
  obtain ⟨h0, h1⟩ := diffuseUsed_bounds doy zeni rm thld
  have h2 : 0 ≤ 1 - diffuseUsed doy zeni rm thld := by linarith
  positivity

/-- At least the diffuse share remains in that case: 24.65 % of the measured radiation. -/
theorem C56_lower {doy zeni azi slope aspect rm thld r : ℝ} (h : 0 < Real.cos zeni) (hrm : 0 ≤ rm)
    (hf : 0 ≤ beamFactor zeni azi slope aspect) (hr : radCor2D doy zeni azi slope aspect rm thld = .ok r) :
    0.2465 * rm ≤ r := by
  rw [C56_formula h.ne', ok_inj] at hr
  subst hr
  obtain ⟨h0, h1⟩ := diffuseUsed_bounds doy zeni rm thld
  have hl : 0.2465 ≤ diffuseUsed doy zeni rm thld := by
    unfold diffuseUsed
    split_ifs
    · norm_num
    · exact (diffuseCurve_bounds _).1
  have h2 : 0 ≤ 1 - diffuseUsed doy zeni rm thld := by linarith
  have : 0 ≤ rm * (1 - diffuseUsed doy zeni rm thld) * beamFactor zeni azi slope aspect := by positivity
  nlinarith

theorem beamFactor_witness : beamFactor (Real.pi / 3) 0 60 180 = -1 := by
  unfold beamFactor
  have e1 : (60 : ℝ) * (Real.pi / 180) = Real.pi / 3 := by ring
  have e2 : (0 : ℝ) - 180 * (Real.pi / 180) = -Real.pi := by ring
  rw [e1, e2, Real.cos_neg, Real.cos_pi, Real.cos_pi_div_three, Real.sin_pi_div_three]
  have h3 : Real.sqrt 3 * Real.sqrt 3 = 3 := Real.mul_self_sqrt (by norm_num)
  field_simp
  nlinarith

/-- **C56 refuted.** 600 W/m² with the sun 60° from the zenith on a 60° slope facing away from it: the corrected radiation is
negative on every day of the year. -/
theorem C56_refuted : ∃ zeni azi slope aspect rm thld : ℝ, 0 < Real.cos zeni ∧ 0 ≤ rm ∧
    ∀ doy : ℝ, ∃ r, radCor2D doy zeni azi slope aspect rm thld = .ok r ∧ r < 0 := by
  refine ⟨Real.pi / 3, 0, 60, 180, 600, 85, by rw [Real.cos_pi_div_three]; norm_num, by norm_num, fun doy => ?_⟩
  have hc : 0 < Real.cos (Real.pi / 3) := by rw [Real.cos_pi_div_three]; norm_num
  refine ⟨_, C56_formula hc.ne', ?_⟩
  rw [beamFactor_witness, diffuseUsed, if_neg (by have := Real.pi_pos; linarith)]
  have h1 : toa doy (Real.pi / 3) ≤ 1367 * 1.033 * (1 / 2) := by
    have := toa_le (doy := doy) hc.le
    rwa [Real.cos_pi_div_three] at this
  have h0 : 0 < toa doy (Real.pi / 3) := toa_pos hc
  have hci : 0.84 ≤ 600 / toa doy (Real.pi / 3) := by
    rw [le_div_iff₀ h0]
    norm_num at *; nlinarith
  generalize 600 / toa doy (Real.pi / 3) = ci at *
  have hd : diffuseCurve ci < 1 / 2 := by
    unfold diffuseCurve
    split_ifs
    · norm_num
    · have a1 : (3 : ℝ) ≤ 0.1001 - (4.7930 - 9.4758 * ci) := by norm_num at *; linarith
      have a2 := Real.add_one_le_exp (0.1001 - (4.7930 - 9.4758 * ci))
      generalize Real.exp (0.1001 - (4.7930 - 9.4758 * ci)) = y at *
      have a3 : Real.exp (-y) ≤ 1 / 5 := by
        have b1 := Real.add_one_le_exp y
        rw [Real.exp_neg, ← one_div]
        apply one_div_le_one_div_of_le (by norm_num)
        linarith
      norm_num at *; linarith
  nlinarith

/-! ## Distance -/

/-- Degrees to radians. -/
noncomputable def rad (x : ℝ) : ℝ := x * Real.pi / 180

/-- The unit vector of a place on the sphere. -/
noncomputable def place (lat lon : ℝ) : EuclideanSpace ℝ (Fin 3) :=
  !₂[Real.cos (rad lat) * Real.cos (rad lon), Real.cos (rad lat) * Real.sin (rad lon), Real.sin (rad lat)]

theorem radians_eq (x : ℝ) : radians x = rad x := by
  have e180 : (180.0 : ℝ) = 180 := by norm_num
  unfold radians rad; rw [e180]; rfl

theorem place_inner (a b c d : ℝ) : inner ℝ (place a b) (place c d) =
    Real.sin (rad a) * Real.sin (rad c) + Real.cos (rad a) * Real.cos (rad c) * Real.cos (rad d - rad b) := by
  simp [place, PiLp.inner_apply, Fin.sum_univ_three, Real.cos_sub]
  ring

theorem place_norm (a b : ℝ) : ‖place a b‖ = 1 := by
  have h := place_inner a b a b
  rw [real_inner_self_eq_norm_sq, sub_self, Real.cos_zero, mul_one] at h
  have h1 : ‖place a b‖ ^ 2 = 1 := by
    rw [h]; have := Real.sin_sq_add_cos_sq (rad a); linarith
  have h0 := norm_nonneg (place a b)
  nlinarith

theorem sin_half_sq (x : ℝ) : Real.sin (x / 2) * Real.sin (x / 2) = (1 - Real.cos x) / 2 := by
  have h : Real.cos (2 * (x / 2)) = 2 * Real.cos (x / 2) ^ 2 - 1 := Real.cos_two_mul _
  have h2 := Real.sin_sq_add_cos_sq (x / 2)
  rw [show 2 * (x / 2) = x by ring] at h
  rw [h]; linarith

theorem havArg_eq (a b c d : ℝ) : havArg a b c d = (1 - inner ℝ (place a b) (place c d)) / 2 := by
  rw [place_inner]
  unfold havArg
  simp only [radians_eq, Transc.sin, Transc.cos]
  have e2 : (2.0 : ℝ) = 2 := by norm_num
  rw [e2, sin_half_sq, sin_half_sq, Real.cos_sub (rad c) (rad a)]
  ring

/-- **C56, distance.** The function never fails and answers the radius of the Earth times the angle between the two
places. -/
theorem C56_haversine (a b c d : ℝ) :
    haversine a b c d = .ok (6371000 * InnerProductGeometry.angle (place a b) (place c d)) := by
  have hi : inner ℝ (place a b) (place c d) = Real.cos (InnerProductGeometry.angle (place a b) (place c d)) := by
    rw [InnerProductGeometry.cos_angle, place_norm, place_norm]; simp
  have h0 := InnerProductGeometry.angle_nonneg (place a b) (place c d)
  have hp := InnerProductGeometry.angle_le_pi (place a b) (place c d)
  generalize InnerProductGeometry.angle (place a b) (place c d) = θ at *
  have e05 : (0.5 : ℝ) = 1 / 2 := by norm_num
  have hs0 : 0 ≤ Real.sin (θ / 2) := Real.sin_nonneg_of_nonneg_of_le_pi (by linarith) (by linarith [Real.pi_pos])
  have hpow : (Transc.pow (havArg a b c d) 0.5 : ℝ) = Real.sin (θ / 2) := by
    show (havArg a b c d) ^ (0.5 : ℝ) = _
    rw [e05, ← Real.sqrt_eq_rpow, havArg_eq, hi, ← sin_half_sq, Real.sqrt_mul_self hs0]
  unfold haversine
  rw [hpow, pyAsin_ok (Real.neg_one_le_sin _) (Real.sin_le_one _), ok_bind,
    Real.arcsin_sin (by linarith [Real.pi_pos]) (by linarith)]
  show Except.ok _ = _
  congr 1
  norm_num
  ring

/-- The distance does not depend on the order of the two places. -/
theorem C56_symmetric (a b c d : ℝ) : haversine a b c d = haversine c d a b := by
  rw [C56_haversine, C56_haversine, InnerProductGeometry.angle_comm]

/-- A place has distance 0 from itself. -/
theorem C56_self (a b : ℝ) : haversine a b a b = .ok 0 := by
  rw [C56_haversine, InnerProductGeometry.angle_self, mul_zero]
  rw [← norm_ne_zero_iff, place_norm]; norm_num

/-- Distances are nonnegative and at most half the circumference; places with distance 0 are the same place of the
sphere. -/
theorem C56_range {a b c d m : ℝ} (h : haversine a b c d = .ok m) :
    0 ≤ m ∧ m ≤ 6371000 * Real.pi ∧ (m = 0 → place a b = place c d) := by
  rw [C56_haversine, ok_inj] at h
  subst h
  have h0 := InnerProductGeometry.angle_nonneg (place a b) (place c d)
  have hp := InnerProductGeometry.angle_le_pi (place a b) (place c d)
  refine ⟨by positivity, by linarith, fun hm => ?_⟩
  have hz : InnerProductGeometry.angle (place a b) (place c d) = 0 := by
    rcases mul_eq_zero.1 hm with h | h
    · norm_num at h
    · exact h
  obtain ⟨_, r, hr, e⟩ := InnerProductGeometry.angle_eq_zero_iff.1 hz
  have hn := congrArg norm e
  rw [norm_smul, place_norm, place_norm, mul_one, Real.norm_of_nonneg hr.le] at hn
  rw [e, ← hn, one_smul]

/-- The way over a third place is never shorter. -/
theorem C56_triangle {a b c d e f x y z : ℝ} (h1 : haversine a b c d = .ok x) (h2 : haversine c d e f = .ok y)
    (h3 : haversine a b e f = .ok z) : z ≤ x + y := by
  rw [C56_haversine, ok_inj] at h1 h2 h3
  subst h1; subst h2; subst h3
  have := InnerProductGeometry.angle_le_angle_add_angle (place a b) (place c d) (place e f)
  linarith

/-! Examples: flat ground with the sun in the zenith, and a slope of 30° facing the sun. -/

example : radCor2D 172 0 0 0 0 (800 : ℝ) 85 = .ok 800 := C56_flat (by rw [Real.cos_zero]; norm_num)

example : radCor2D 172 (Real.pi / 2) 0 0 0 (10 : ℝ) 85 = .error .zeroDiv := C56_horizon Real.cos_pi_div_two

example : 0 ≤ beamFactor (Real.pi / 3) 0 60 0 := by
  unfold beamFactor
  have e1 : (60 : ℝ) * (Real.pi / 180) = Real.pi / 3 := by ring
  rw [e1, zero_mul, sub_zero, Real.cos_zero, Real.cos_pi_div_three, Real.sin_pi_div_three]
  positivity

/-- A quarter of the equator. -/
example : haversine (0 : ℝ) 0 0 90 = .ok (6371000 * (Real.pi / 2)) := by
  rw [C56_haversine, InnerProductGeometry.angle, place_inner, place_norm, place_norm]
  have e1 : rad 0 = 0 := by simp [rad]
  have e2 : rad 90 - rad 0 = Real.pi / 2 := by simp [rad]; ring
  rw [e2, e1, Real.sin_zero, Real.cos_pi_div_two]
  simp

end Cosipy
