import Verif.Model.Core
import Mathlib.Order.Defs.LinearOrder
import Mathlib.Data.Nat.Cast.Defs
import Mathlib.Algebra.Order.Field.Basic
import Mathlib.Tactic.NormNum
import Mathlib.Tactic.Linarith
import Mathlib.Tactic.Positivity

/-!
# Arithmetic with rounding

What remains of the laws of arithmetic when every operation is rounded: monotonicity, and exactness where 0 or 1 is involved.
Neither associativity nor distributivity is assumed, and neither cancellation: `a + b - b` may differ from `a`, and products of positive
numbers may be zero (underflow).
-/

set_option autoImplicit false

namespace Cosipy

/-- Laws of rounded arithmetic. They hold in every ordered field and for every monotone rounding of real arithmetic
(`Verif/Model/Float.lean`), in particular for IEEE 754 double precision as long as nothing overflows. -/
class Rounded (α : Type) [LinearOrder α] [Zero α] [One α] [Add α] [Sub α] [Mul α] [Div α] [Neg α] [NatCast α] [OfScientific α] :
    Prop where
  zero_le_one : (0 : α) ≤ 1
  add_mono : ∀ {a b c d : α}, a ≤ b → c ≤ d → a + c ≤ b + d
  add_zero : ∀ a : α, a + 0 = a
  zero_add : ∀ a : α, 0 + a = a
  sub_mono : ∀ {a b c d : α}, a ≤ b → d ≤ c → a - c ≤ b - d
  sub_zero : ∀ a : α, a - 0 = a
  sub_self : ∀ a : α, a - a = 0
  zero_sub : ∀ a : α, 0 - a = -a
  mul_mono_left : ∀ {a b c : α}, 0 ≤ c → a ≤ b → c * a ≤ c * b
  mul_mono_right : ∀ {a b c : α}, 0 ≤ c → a ≤ b → a * c ≤ b * c
  mul_anti_left : ∀ {a b c : α}, c ≤ 0 → a ≤ b → c * b ≤ c * a
  mul_zero : ∀ a : α, a * 0 = 0
  zero_mul : ∀ a : α, 0 * a = 0
  one_mul : ∀ a : α, 1 * a = a
  mul_one : ∀ a : α, a * 1 = a
  div_mono : ∀ {a b c : α}, 0 ≤ c → a ≤ b → a / c ≤ b / c
  zero_div : ∀ a : α, 0 / a = 0
  neg_anti : ∀ {a b : α}, a ≤ b → -b ≤ -a
  neg_zero : -(0 : α) = 0
  add_neg : ∀ a : α, a + -a = 0
  lit_nonneg : ∀ m s e, (0 : α) ≤ OfScientific.ofScientific m s e
  nat_nonneg : ∀ n : Nat, (0 : α) ≤ (n : α)
  small : (0.23 : α) ≤ 1
  /-- Decimal constants are read precisely enough that the irreducible water content (cosipy/cpkernel/node.py:155-157) does not
  turn negative where its two branches meet. -/
  irreducible : (0.1023 : α) * (0.812 - 0.03) ≤ 0.08

/-- Ordered fields satisfy the laws. -/
instance {K : Type} [Field K] [LinearOrder K] [IsStrictOrderedRing K] : Rounded K where
  zero_le_one := _root_.zero_le_one
  add_mono := add_le_add
  add_zero := _root_.add_zero
  zero_add := _root_.zero_add
  sub_mono := sub_le_sub
  sub_zero := _root_.sub_zero
  sub_self := _root_.sub_self
  zero_sub := _root_.zero_sub
  mul_mono_left h1 h2 := mul_le_mul_of_nonneg_left h2 h1
  mul_mono_right h1 h2 := mul_le_mul_of_nonneg_right h2 h1
  mul_anti_left h1 h2 := mul_le_mul_of_nonpos_left h2 h1
  mul_zero := MulZeroClass.mul_zero
  zero_mul := MulZeroClass.zero_mul
  one_mul := _root_.one_mul
  mul_one := _root_.mul_one
  div_mono h1 h2 := div_le_div_of_nonneg_right h2 h1
  zero_div := _root_.zero_div
  neg_anti := neg_le_neg
  neg_zero := _root_.neg_zero
  add_neg := _root_.add_neg_cancel
  lit_nonneg m s e := by
    cases s
    · rw [show (OfScientific.ofScientific m false e : K) = ((OfScientific.ofScientific m false e : NNRat) : K) from rfl]
      positivity
    · rw [show (OfScientific.ofScientific m true e : K) = ((OfScientific.ofScientific m true e : NNRat) : K) from rfl]
      positivity
  nat_nonneg := Nat.cast_nonneg
  small := by norm_num
  irreducible := by norm_num

/-- Bounds of the exponential that survive rounding. -/
structure ExpSigns (α : Type) [LinearOrder α] [Zero α] [One α] [Transc α] : Prop where
  nonneg : ∀ x : α, 0 ≤ Transc.exp x
  le_one : ∀ x : α, x ≤ 0 → Transc.exp x ≤ 1

section
variable {α : Type} [LinearOrder α] [Zero α] [One α] [Add α] [Sub α] [Mul α] [Div α] [Neg α] [NatCast α] [OfScientific α]

/-- No negative height, ice fraction or liquid water. -/
structure NonNegLayer (n : Node α) : Prop where
  height : 0 ≤ n.height
  ice : 0 ≤ n.iceFraction
  water : 0 ≤ n.lwc

/-- Signs of constants and settings, as numbers of the arithmetic in use. -/
structure SignSane (c : Consts α) (r : RunCfg α) : Prop where
  water : 0 ≤ c.waterDensity
  ice : 0 ≤ c.iceDensity
  air : 0 ≤ c.airDensity
  airLow : c.airDensity ≤ 50.0
  airConst : c.airDensity ≤ c.constantDensity
  melt : 0 ≤ c.latHeatMelting
  vap : 0 ≤ c.latHeatVaporize
  subl : 0 ≤ c.latHeatSublimation
  cIce : 0 ≤ c.specHeatIce
  first : 0 ≤ c.firstLayerHeight
  stretch : 0 ≤ c.layerStretching
  snowMin : 0 ≤ c.minimumSnowfall
  dt : 0 ≤ r.dt

/-- Signs of the quantities stored for a time step. -/
structure SignedOut (c : Consts α) (o : StepOut α) : Prop where
  snowfall : 0 ≤ o.snowfall
  rain : 0 ≤ o.rain
  rho : c.airDensity ≤ o.densityFreshSnow
  subsurface : 0 ≤ o.subsurfaceMelt
  surface : o.ts ≤ c.zeroTemperature
  sublimation : o.sublimation ≤ 0
  evaporation : o.evaporation ≤ 0
  deposition : 0 ≤ o.deposition
  condensation : 0 ≤ o.condensation
  meltEnergy : 0 ≤ o.meltEnergy
  melt : 0 ≤ o.melt
  freed : 0 ≤ o.lwcFromLayers
  runoff : 0 ≤ o.q

section
variable [Transc α]

/-- `s'` is the state before the first or after some step of a simulation of the forcings `fs` from `s`. -/
def Reached (sv : Solvers α) (fuel : Nat) (c : Consts α) (r : RunCfg α) (s : SimState α) (fs : List (Forcing α))
    (s' : SimState α) : Prop :=
  ∃ pre suf os, fs = pre ++ suf ∧ run sv fuel c r s pre = .ok (s', os)

end

end
end Cosipy
