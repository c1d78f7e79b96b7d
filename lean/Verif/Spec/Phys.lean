import Verif.Model.Node
import Mathlib.Algebra.Order.Field.Basic
import Mathlib.Tactic.NormNum
import Mathlib.Tactic.Linarith

/-!
# Physically sensible constants
The sign and order facts about the constants that some theorems need; the shipped `constants.toml` satisfies them.
-/

set_option autoImplicit false
set_option linter.unusedSectionVars false

namespace Cosipy
section
variable {K : Type} [Field K] [LinearOrder K] [IsStrictOrderedRing K]

/-- Sign and order of the material constants. -/
structure Consts.Phys (c : Consts K) : Prop where
  water : 0 < c.waterDensity
  air : 0 < c.airDensity
  air_lt : c.airDensity < c.snowIceThreshold
  thr_le : c.snowIceThreshold ≤ c.iceDensity
  ice_le : c.iceDensity ≤ c.waterDensity
  melt : 0 < c.latHeatMelting
  vap : 0 < c.latHeatVaporize
  subl : 0 < c.latHeatSublimation
  cIce : 0 < c.specHeatIce
  cWater : c.specHeatIce < c.specHeatWater
  cAir : 0 < c.specHeatAir
  kI : 0 < c.kI
  kW : 0 < c.kW
  kA : 0 < c.kA
  t0 : 0 < c.zeroTemperature

theorem Consts.Phys.thr {c : Consts K} (h : c.Phys) : 0 < c.snowIceThreshold := h.air.trans h.air_lt
theorem Consts.Phys.ice {c : Consts K} (h : c.Phys) : 0 < c.iceDensity := h.thr.trans_le h.thr_le
theorem Consts.Phys.cW {c : Consts K} (h : c.Phys) : 0 < c.specHeatWater := h.cIce.trans h.cWater

/-- The shipped constants are physical. -/
theorem Consts.default_phys : (Consts.default K).Phys := by
  constructor <;> norm_num [Consts.default]

/-- Order of the albedo constants: ice darkest, fresh snow brightest, positive decay scales. -/
structure Consts.AlbedoOrder (c : Consts K) : Prop where
  ice_le : c.albedoIce ≤ c.albedoFirn
  firn_le : c.albedoFirn ≤ c.albedoFreshSnow
  aging : 0 < c.albedoModSnowAging
  depth : 0 < c.albedoModSnowDepth

theorem Consts.default_albedo : (Consts.default K).AlbedoOrder := by
  constructor <;> norm_num [Consts.default]

/-- Order of the roughness constants. -/
structure Consts.RoughnessOrder (c : Consts K) : Prop where
  fresh_le : c.roughnessFreshSnow ≤ c.roughnessFirn
  aging : 0 ≤ c.agingFactorRoughness

theorem Consts.default_roughness : (Consts.default K).RoughnessOrder := by
  constructor <;> norm_num [Consts.default]

/-- A layer heat can be conducted through: positive height, fractions not negative. -/
def Conducting (n : Node K) : Prop := 0 < n.height ∧ 0 ≤ n.iceFraction ∧ 0 ≤ n.lwc

end
end Cosipy
