import Verif.Model.RealTrig
import Verif.Lemmas.Arith
import Mathlib.Tactic.Linarith
import Mathlib.Tactic.LinearCombination
import Mathlib.Tactic.NormNum.OfScientific

/-! The terrain radiation model over the real numbers, rewritten with the functions of Mathlib. -/

set_option autoImplicit false
set_option linter.unusedSectionVars false

namespace Cosipy
namespace RadCor

theorem pyAsin_ok {x : ℝ} (h1 : -1 ≤ x) (h2 : x ≤ 1) : pyAsin x = .ok (Real.arcsin x) := by
  have e : (1.0 : ℝ) = 1 := by norm_num
  unfold pyAsin
  rw [e, if_neg (not_lt.2 h1), if_neg (not_lt.2 h2)]
  rfl

theorem pyAcos_ok {x : ℝ} (h1 : -1 ≤ x) (h2 : x ≤ 1) : pyAcos x = .ok (Real.arccos x) := by
  have e : (1.0 : ℝ) = 1 := by norm_num
  unfold pyAcos
  rw [e, if_neg (not_lt.2 h1), if_neg (not_lt.2 h2)]
  rfl

theorem pyAcos_error {x : ℝ} (h : x < -1 ∨ 1 < x) : pyAcos x = .error .value := by
  have e : (1.0 : ℝ) = 1 := by norm_num
  unfold pyAcos
  rw [e]
  rcases h with h | h
  · rw [if_pos h]
  · rw [if_pos h]; split_ifs <;> rfl

/-- The scalar product of two unit vectors given by angles stays within [-1, 1]. -/
theorem sphere_bound (a b c : ℝ) :
    -1 ≤ Real.sin a * Real.sin b + Real.cos a * Real.cos b * Real.cos c ∧
      Real.sin a * Real.sin b + Real.cos a * Real.cos b * Real.cos c ≤ 1 := by
  have h1 := Real.sin_sq_add_cos_sq a
  have h2 := Real.sin_sq_add_cos_sq b
  have hc1 := Real.neg_one_le_cos c
  have hc2 := Real.cos_le_one c
  -- convexity in cos c between cos (a + b) and cos (a - b)
  have e1 := Real.cos_sub a b
  have e2 := Real.cos_add a b
  have b1 := Real.cos_le_one (a - b)
  have b2 := Real.neg_one_le_cos (a - b)
  have b3 := Real.cos_le_one (a + b)
  have b4 := Real.neg_one_le_cos (a + b)
  have key : Real.sin a * Real.sin b + Real.cos a * Real.cos b * Real.cos c
      = (1 + Real.cos c) / 2 * Real.cos (a - b) - (1 - Real.cos c) / 2 * Real.cos (a + b) := by
    rw [e1, e2]; ring
  rw [key]
  constructor <;> nlinarith

end RadCor
end Cosipy
