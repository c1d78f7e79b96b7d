import Verif.Model.Float
import Mathlib.Data.Nat.Sqrt
import Mathlib.Data.Rat.Floor

/-!
# Executable elementary functions

Rational approximations of the elementary functions to about thirty decimal digits. Rounded to 53 bits they are the values that a
correctly rounded library returns, except in ties no test comes near. They serve only to replay the unit tests of the project on the
model (`Verif/Validation/Tests.lean`); no claim rests on them.
-/

set_option autoImplicit false

namespace Cosipy.Validation

/-- Nearest lower multiple of `2 ^ -160`, so that denominators stay small. -/
def cut (x : ℚ) : ℚ := (⌊x * 2 ^ 160⌋ : ℚ) / 2 ^ 160

/-- `1 + x / k * (1 + x / (k + 1) * (… ))`. -/
def expTaylor (x : ℚ) : Nat → ℚ → ℚ
  | 0, _ => 1
  | n + 1, k => cut (1 + x / k * expTaylor x n (k + 1))

/-- Squares `n` times. -/
def squares : Nat → ℚ → ℚ
  | 0, x => x
  | n + 1, x => squares n (cut (x * x))

/-- `e ^ x` for `0 ≤ x`. -/
def expPos (x : ℚ) : ℚ :=
  let k := Nat.log2 (⌈x⌉.toNat + 1) + 4
  squares k (expTaylor (x / 2 ^ k) 18 1)

/-- `e ^ x`. -/
def expQ (x : ℚ) : ℚ := if x < 0 then 1 / expPos (-x) else expPos x

/-- `z / k + z ^ 3 / (k + 2) + …`, given `z²`. -/
def artanhSeries (z2 : ℚ) : Nat → ℚ → ℚ → ℚ
  | 0, _, _ => 0
  | n + 1, z, k => cut (z / k) + artanhSeries z2 n (cut (z * z2)) (k + 2)

/-- `log x` for `1 ≤ x < 2`. -/
def logUnit (x : ℚ) : ℚ :=
  let z := (x - 1) / (x + 1)
  2 * artanhSeries (cut (z * z)) 34 z 1

/-- `log x` for `0 < x`. -/
def logQ (x : ℚ) : ℚ :=
  let m := Int.log 2 x
  m * logUnit 2 + logUnit (x / 2 ^ m)

def sqrtQ (x : ℚ) : ℚ := (Nat.sqrt ⌊x * 2 ^ 240⌋.toNat : ℚ) / 2 ^ 120

/-- `a ^ b`; integral exponents by multiplication. -/
def powQ (a b : ℚ) : ℚ :=
  if b.den = 1 then (if b < 0 then 1 / a ^ b.num.natAbs else a ^ b.num.natAbs)
  else if a ≤ 0 then 0 else expQ (b * logQ a)

/-- `t - t·x²/(k(k+1)) + …`. -/
def circSeries (x2 : ℚ) : Nat → ℚ → ℚ → ℚ
  | 0, _, _ => 0
  | n + 1, t, k => t + circSeries x2 n (cut (-t * x2 / (k * (k + 1)))) (k + 2)

def cosQ (x : ℚ) : ℚ := circSeries (x * x) 32 1 1
def sinQ (x : ℚ) : ℚ := circSeries (x * x) 32 x 2

def tanhQ (x : ℚ) : ℚ := let e := expQ (2 * x); (e - 1) / (e + 1)

/-- `z - z³/3 + …`, given `z²`. -/
def arctanSeries (z2 : ℚ) : Nat → ℚ → ℚ → ℚ
  | 0, _, _ => 0
  | n + 1, z, k => cut (z / k) + arctanSeries z2 n (cut (-z * z2)) (k + 2)

/-- Halves the angle three times. -/
def arctanQ (x : ℚ) : ℚ :=
  let h := fun y : ℚ => cut (y / (1 + sqrtQ (1 + y * y)))
  let z := h (h (h x))
  8 * arctanSeries (cut (z * z)) 34 z 1

@[implicit_reducible] def numTransc : Transc ℚ where
  exp := expQ
  log := logQ
  sqrt := sqrtQ
  tanh := tanhQ
  cos := cosQ
  sin := sinQ
  arctan := arctanQ
  pow := powQ
  pi := 3.14159265358979323846264338327950288419716939937510

end Cosipy.Validation
