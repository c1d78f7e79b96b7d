import Verif.Model.Real
import Verif.Model.RadCor

/-! The inverse trigonometric functions of `math` read as those of real analysis. -/

set_option autoImplicit false

namespace Cosipy

noncomputable instance instInvTrigReal : InvTrig ℝ where
  asin := Real.arcsin
  acos := Real.arccos
  tan := Real.tan

end Cosipy
