import Verif.Model.Preprocess
import Verif.Model.Real
import Mathlib.Tactic.NormNum
import Mathlib.Tactic.NormNum.OfScientific
import Mathlib.Tactic.Linarith

/-!
# C54 Pressure at the station's own height is the measured pressure

Over the real numbers. The claim holds for distributed input (`C54_grid_partial`) and fails for point input at every station
that is not at sea level (`C54_point_iff`, `C54_refuted`): the exponents 5.255 and 5.22 differ.
-/

set_option autoImplicit false
set_option linter.unusedSectionVars false

namespace Cosipy
open Aws

/-- The temperature ratio of the standard atmosphere at height `a`; positive below 44330 m. -/
noncomputable def tempRatio (a : ℝ) : ℝ := 1 - 0.0065 * a / 288.15

theorem tempRatio_lt_one {a : ℝ} (h : 0 < a) : tempRatio a < 1 := by
  unfold tempRatio
  have : 0 < 0.0065 * a / 288.15 := by positivity
  linarith

theorem tempRatio_strictAnti {a b : ℝ} (h : a < b) : tempRatio b < tempRatio a := by
  unfold tempRatio
  have : 0.0065 * a / 288.15 < 0.0065 * b / 288.15 := by
    apply div_lt_div_of_pos_right _ (by norm_num)
    exact mul_lt_mul_of_pos_left h (by norm_num)
  linarith

theorem tempRatio_eq_one {a : ℝ} : tempRatio a = 1 ↔ a = 0 := by
  constructor
  · intro h
    rcases lt_trichotomy a 0 with h0 | h0 | h0
    · have := tempRatio_strictAnti h0
      have e : tempRatio 0 = 1 := by simp [tempRatio]
      linarith
    · exact h0
    · have := tempRatio_lt_one h0; linarith
  · rintro rfl; simp [tempRatio]

theorem gridPressure_eq (a h p : ℝ) : gridPressure a h p = p / tempRatio a ^ (5.255 : ℝ) * tempRatio h ^ (5.255 : ℝ) := by
  unfold gridPressure tempRatio
  norm_num [Transc.pow]

theorem getPressureBias_eq (a h p : ℝ) :
    getPressureBias a h p = p / tempRatio a ^ (5.255 : ℝ) * tempRatio h ^ (5.22 : ℝ) := by
  unfold getPressureBias tempRatio
  norm_num [Transc.pow]

/-- **C54, distributed input.** A cell at the height of the station gets the measured pressure. Missing: point input, where
it is false. -/
theorem C54_grid_partial {a : ℝ} (ha : 0 < tempRatio a) (p : ℝ) : gridPressure a a p = p := by
  rw [gridPressure_eq]
  exact div_mul_cancel₀ _ (Real.rpow_pos_of_pos ha _).ne'

/-- Distributed input: extrapolating in two steps is the same as in one. -/
theorem C54_grid_transitive {a b : ℝ} (hb : 0 < tempRatio b) (c p : ℝ) :
    gridPressure b c (gridPressure a b p) = gridPressure a c p := by
  rw [gridPressure_eq, gridPressure_eq, gridPressure_eq, mul_div_assoc, div_self (Real.rpow_pos_of_pos hb _).ne', mul_one]

/-- Distributed input: pressures stay positive and are lower in higher cells. -/
theorem C54_grid_decreasing {a h h' p : ℝ} (hp : 0 < p) (ha : 0 < tempRatio a) (hh : h < h') (hh' : 0 < tempRatio h') :
    0 < gridPressure a h' p ∧ gridPressure a h' p < gridPressure a h p := by
  have h0 : 0 < p / tempRatio a ^ (5.255 : ℝ) := div_pos hp (Real.rpow_pos_of_pos ha _)
  rw [gridPressure_eq, gridPressure_eq]
  refine ⟨mul_pos h0 (Real.rpow_pos_of_pos hh' _), mul_lt_mul_of_pos_left ?_ h0⟩
  exact Real.rpow_lt_rpow hh'.le (tempRatio_strictAnti hh) (by norm_num)

/-- **C54, point input.** The pressure at the station's own height is the measured one times a factor. -/
theorem C54_point_factor {a : ℝ} (ha : 0 < tempRatio a) (p : ℝ) :
    getPressureBias a a p = p * tempRatio a ^ (-0.035 : ℝ) := by
  rw [getPressureBias_eq, div_mul_eq_mul_div, mul_div_assoc, ← Real.rpow_sub ha]
  norm_num

/-- **C54, point input, exactly.** It is the measured pressure iff the station is at sea level (or the pressure is 0). -/
theorem C54_point_iff {a : ℝ} (ha : 0 < tempRatio a) (p : ℝ) : getPressureBias a a p = p ↔ p = 0 ∨ a = 0 := by
  rw [C54_point_factor ha]
  constructor
  · intro h
    by_cases hp : p = 0
    · exact Or.inl hp
    · right
      have h1 : tempRatio a ^ (-0.035 : ℝ) = 1 := by
        have : p * tempRatio a ^ (-0.035 : ℝ) = p * 1 := by rw [h, mul_one]
        exact mul_left_cancel₀ hp this
      refine tempRatio_eq_one.1 (le_antisymm ?_ ?_) <;> refine not_lt.1 fun hlt => ?_
      · have := Real.rpow_lt_one_of_one_lt_of_neg hlt (by norm_num : (-0.035 : ℝ) < 0)
        linarith
      · have := Real.one_lt_rpow_of_pos_of_lt_one_of_neg ha hlt (by norm_num : (-0.035 : ℝ) < 0)
        linarith
  · rintro (rfl | rfl)
    · simp
    · rw [tempRatio_eq_one.2 rfl, Real.one_rpow, mul_one]

/-- **C54, point input, direction.** Above sea level it is too high. -/
theorem C54_point_high {a p : ℝ} (h0 : 0 < a) (ha : 0 < tempRatio a) (hp : 0 < p) : p < getPressureBias a a p := by
  rw [C54_point_factor ha]
  have := Real.one_lt_rpow_of_pos_of_lt_one_of_neg ha (tempRatio_lt_one h0) (by norm_num : (-0.035 : ℝ) < 0)
  nlinarith

/-- **C54 refuted for point input**, with the station height of the shipped configuration: a pressure of 500 hPa becomes
more than 502 hPa. -/
theorem C54_refuted : 502 < getPressureBias 5665 5665 (500 : ℝ) := by
  have ha : 0 < tempRatio 5665 := by unfold tempRatio; norm_num
  rw [C54_point_factor ha, Real.rpow_neg ha.le, ← div_eq_mul_inv, lt_div_iff₀ (Real.rpow_pos_of_pos ha _)]
  have h1 : tempRatio 5665 < 0.88 := by unfold tempRatio; norm_num
  have h2 : tempRatio 5665 ^ (0.035 : ℝ) ≤ 0.88 ^ (0.035 : ℝ) := Real.rpow_le_rpow ha.le h1.le (by norm_num)
  have h3 : (0.88 : ℝ) ^ (0.035 : ℝ) < 0.9959 := by
    have e : (0.035 : ℝ) = 7 * (1 / 200 : ℝ) := by norm_num
    rw [e, mul_comm, Real.rpow_mul (by norm_num)]
    have h4 : ((0.88 : ℝ) ^ (1 / 200 : ℝ)) ≤ 0.99937 := by
      rw [show (0.99937 : ℝ) = ((0.99937 : ℝ) ^ (200 : ℕ)) ^ (1 / 200 : ℝ) by
        rw [← Real.rpow_natCast, ← Real.rpow_mul (by norm_num)]; norm_num]
      apply Real.rpow_le_rpow (by norm_num) _ (by norm_num)
      norm_num
    have h5 : ((0.88 : ℝ) ^ (1 / 200 : ℝ)) ^ (7 : ℝ) ≤ 0.99937 ^ (7 : ℝ) :=
      Real.rpow_le_rpow (Real.rpow_nonneg (by norm_num) _) h4 (by norm_num)
    refine h5.trans_lt ?_
    have : (0.99937 : ℝ) ^ (7 : ℝ) = 0.99937 ^ (7 : ℕ) := by rw [← Real.rpow_natCast]; norm_num
    rw [this]
    norm_num
  nlinarith

/-! ## Non-vacuity: heights below 44000 m meet the hypotheses. -/
example : 0 < tempRatio 5665 ∧ (0 : ℝ) < 5665 ∧ 0 < tempRatio 44000 := by unfold tempRatio; norm_num

end Cosipy
