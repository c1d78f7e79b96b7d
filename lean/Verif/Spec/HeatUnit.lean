import Verif.Model.Core
import Mathlib.Algebra.Order.Field.Basic

/-!
# The same simulation with another unit of heat
-/

set_option autoImplicit false
set_option linter.unusedSectionVars false

namespace Cosipy
section
variable {K : Type} [Field K] [LinearOrder K] [IsStrictOrderedRing K]

/-- The material constants that contain a heat, multiplied by `l`: latent heats, specific heats, conductivities and the
Stefan-Boltzmann constant. -/
def Consts.heatUnit (l : K) (c : Consts K) : Consts K :=
  { c with
    latHeatMelting := l * c.latHeatMelting, latHeatVaporize := l * c.latHeatVaporize, latHeatSublimation := l * c.latHeatSublimation
    specHeatAir := l * c.specHeatAir, specHeatIce := l * c.specHeatIce, specHeatWater := l * c.specHeatWater
    kI := l * c.kI, kW := l * c.kW, kA := l * c.kA, sigma := l * c.sigma }

/-- The incoming radiation multiplied by `l`. -/
def Forcing.heatUnit (l : K) (f : Forcing K) : Forcing K := { f with g := l * f.g, lwin := f.lwin.map (l * ·) }

/-- The heat fluxes (and the latent heat used for them) multiplied by `l`. -/
def Fluxes.heatUnit (l : K) (f : Fluxes K) : Fluxes K :=
  { f with li := l * f.li, lo := l * f.lo, h := l * f.h, le := l * f.le, b := l * f.b, qrr := l * f.qrr, lv := l * f.lv }

/-- The heat fluxes among the results of a step multiplied by `l`; temperatures, masses, heights and albedo as they are. -/
def StepOut.heatUnit (l : K) (o : StepOut K) : StepOut K :=
  { o with swnet := l * o.swnet, fluxes := o.fluxes.heatUnit l, meltEnergy := l * o.meltEnergy }

/-- Minimisers and root finders whose answer does not change when the function is multiplied by a positive number. -/
def Solvers.ScaleFree (sv : Solvers K) : Prop :=
  (∀ (l : K), 0 < l → ∀ f x, sv.newton (fun t => (f t).map (l * ·)) x = sv.newton f x) ∧
  (∀ (l : K), 0 < l → ∀ m f x a b, sv.minimize m (fun t => (f t).map (l * ·)) x a b = sv.minimize m f x a b)

end
end Cosipy
