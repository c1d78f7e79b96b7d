import Verif.Spec.Rounded

/-!
# Upper limits in rounded arithmetic
-/

set_option autoImplicit false

namespace Cosipy

/-- More laws of rounded arithmetic: a number divided by itself gives at most one (exactly one for all but zero, in IEEE 754);
two decimal constants below one are read as numbers not above one. -/
class RoundedDiv (α : Type) [LinearOrder α] [Zero α] [One α] [Div α] [OfScientific α] : Prop where
  div_self_le : ∀ {a : α}, 0 ≤ a → a / a ≤ 1
  tenth : (0.1 : α) ≤ 1
  fifth : (0.2 : α) ≤ 1

instance {K : Type} [Field K] [LinearOrder K] [IsStrictOrderedRing K] : RoundedDiv K where
  div_self_le := fun {a} _ => div_self_le_one a
  tenth := by norm_num
  fifth := by norm_num

/-- No negative height, ice fraction or liquid water, and no more ice than the volume of the layer. -/
structure CappedLayer {α : Type} [LinearOrder α] [Zero α] [One α] (n : Node α) : Prop where
  height : 0 ≤ n.height
  ice : 0 ≤ n.iceFraction
  water : 0 ≤ n.lwc
  full : n.iceFraction ≤ 1

/-- A column of capped layers whose ages of the snow are not negative. -/
structure CappedColumn {α : Type} [LinearOrder α] [Zero α] [One α] (g : Grid α) : Prop where
  layers : ∀ n ∈ g.nodes, CappedLayer n
  newAge : 0 ≤ g.newSnowTimestamp
  oldAge : 0 ≤ g.oldSnowTimestamp

/-- Albedos in the usual order, time and depth scales not negative. The difference between fresh snow and firn, added to firn
again, does not exceed one: in exact arithmetic this says that the albedo of fresh snow does not. -/
structure BrightSane {α : Type} [LinearOrder α] [Zero α] [One α] [Add α] [Sub α] (c : Consts α) : Prop where
  ice : 0 ≤ c.albedoIce
  firn : c.albedoIce ≤ c.albedoFirn
  fresh : c.albedoFirn ≤ c.albedoFreshSnow
  top : c.albedoFirn + (c.albedoFreshSnow - c.albedoFirn) ≤ 1
  aging : 0 ≤ c.albedoModSnowAging
  depth : 0 ≤ c.albedoModSnowDepth

end Cosipy
