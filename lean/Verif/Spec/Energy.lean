import Verif.Model.SurfaceTemp
import Verif.Spec.Phys

/-!
# The surface energy balance as a function of the surface temperature
-/

set_option autoImplicit false

namespace Cosipy
section
variable {K : Type} [Field K] [LinearOrder K] [IsStrictOrderedRing K] [Transc K]

/-- `R t` is the sum of net shortwave radiation `sw` and all fluxes at surface temperature `t`: longwave in and out,
sensible, latent, ground and rain heat. -/
def Balance (c : Consts K) (wrf : Bool) (g : Grid K) (i : EbInput K) (sw : K) (R : K → K) : Prop :=
  ∀ t, ∃ fl, ebFluxes c wrf g i t = .ok fl ∧ R t = sw + fl.li + fl.lo + fl.h + fl.le + fl.b + fl.qrr

end
end Cosipy
