import Verif.Model.Num
import Mathlib.Analysis.SpecialFunctions.Pow.Real
import Mathlib.Analysis.SpecialFunctions.Trigonometric.Arctan
import Mathlib.Algebra.Order.Floor.Ring

/-!
# The model over the real numbers
The elementary functions of numpy read as the functions of real analysis. Outside their domains numpy answers NaN
(`log`, `sqrt` and fractional powers of negative numbers); Mathlib's total functions answer some real number there.
Theorems over ℝ that use these functions state the domain conditions they need.
-/

set_option autoImplicit false

namespace Cosipy

noncomputable instance instTranscReal : Transc ℝ where
  exp := Real.exp
  log := Real.log
  sqrt := Real.sqrt
  tanh := Real.tanh
  cos := Real.cos
  sin := Real.sin
  arctan := Real.arctan
  pow := fun x y => x ^ y
  pi := Real.pi

/-- Truncation towards zero. -/
noncomputable instance instHasTruncReal : HasTrunc ℝ where
  trunc x := if x < 0 then ⌈x⌉ else ⌊x⌋

end Cosipy
