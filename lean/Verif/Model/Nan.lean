import Verif.Model.Num
import Mathlib.Algebra.Order.Field.Basic

/-!
# Numbers with NaN
An arithmetic for the model in which results can be "not a number", as in IEEE 754 (the `float64` of numpy, used throughout
/repo): every operation with NaN gives NaN and every comparison with NaN is false. Simplified: no infinities (a division by zero that
does not raise gives NaN) and no rounding.
-/

set_option autoImplicit false

namespace Cosipy

/-- A number or NaN (`np.nan`, as in cosipy/cpkernel/io.py:193-209). -/
inductive Nan (K : Type) where
  | num (x : K)
  | nan
  deriving DecidableEq

namespace Nan
section
variable {K : Type}

/-- Operations propagate NaN (IEEE 754; no code in /repo). -/
def lift (f : K → K) : Nan K → Nan K
  | num a => num (f a)
  | nan => nan

/-- Operations propagate NaN (IEEE 754; no code in /repo). -/
def lift₂ (f : K → K → K) : Nan K → Nan K → Nan K
  | num a, num b => num (f a b)
  | _, _ => nan

/-- Comparisons with NaN are false (IEEE 754; no code in /repo). -/
def rel (r : K → K → Prop) : Nan K → Nan K → Prop
  | num a, num b => r a b
  | _, _ => False

instance {r : K → K → Prop} [DecidableRel r] : DecidableRel (rel r)
  | num a, num b => inferInstanceAs (Decidable (r a b))
  | num _, nan => isFalse id
  | nan, num _ => isFalse id
  | nan, nan => isFalse id

instance [Zero K] : Zero (Nan K) := ⟨num 0⟩
instance [One K] : One (Nan K) := ⟨num 1⟩
instance [Add K] : Add (Nan K) := ⟨lift₂ (· + ·)⟩
instance [Sub K] : Sub (Nan K) := ⟨lift₂ (· - ·)⟩
instance [Mul K] : Mul (Nan K) := ⟨lift₂ (· * ·)⟩
instance [Neg K] : Neg (Nan K) := ⟨lift (- ·)⟩
/-- Division by zero gives NaN (IEEE 754 gives an infinity unless the dividend is zero; no code in /repo). -/
instance [Div K] [Zero K] [DecidableEq K] : Div (Nan K) :=
  ⟨fun a b => if b = num 0 then nan else lift₂ (· / ·) a b⟩
instance [LT K] : LT (Nan K) := ⟨rel (· < ·)⟩
instance [LE K] : LE (Nan K) := ⟨rel (· ≤ ·)⟩
instance [LT K] [DecidableLT K] : DecidableLT (Nan K) := inferInstanceAs (DecidableRel (rel (K := K) (· < ·)))
instance [LE K] [DecidableLE K] : DecidableLE (Nan K) := inferInstanceAs (DecidableRel (rel (K := K) (· ≤ ·)))
/-- NaN is not equal to itself (IEEE 754; no code in /repo). -/
instance [DecidableEq K] : BEq (Nan K) := ⟨fun a b => decide (rel (· = ·) a b)⟩
instance [NatCast K] : NatCast (Nan K) := ⟨fun n => num n⟩
instance [OfScientific K] : OfScientific (Nan K) := ⟨fun m s e => num (OfScientific.ofScientific m s e)⟩
/-- Elementary functions outside their domain give NaN, as in numpy (cosipy/modules/surfaceTemperature.py:298-573): the logarithm of a
number that is not positive (numpy gives an infinity at 0), the square root of a negative number, the power of a negative
number unless the exponent is 2, 3 or 4 (the only whole exponents of the modelled code; other whole exponents are
simplified to NaN) and a negative power of 0. -/
instance [Transc K] [Zero K] [NatCast K] [LT K] [DecidableLT K] [DecidableEq K] : Transc (Nan K) where
  exp := lift Transc.exp
  log a := if 0 < a then lift Transc.log a else nan
  sqrt a := if a < 0 then nan else lift Transc.sqrt a
  tanh := lift Transc.tanh
  cos := lift Transc.cos
  sin := lift Transc.sin
  arctan := lift Transc.arctan
  pow a b := if a < 0 ∧ ¬ (b = 2 ∨ b = 3 ∨ b = 4) ∨ a = num 0 ∧ b < 0 then nan
    else lift₂ Transc.pow a b
  pi := num Transc.pi

end
end Nan
end Cosipy
