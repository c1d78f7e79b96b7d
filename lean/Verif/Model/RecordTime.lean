import Verif.Model.Preprocess
import Verif.Model.Shading

/-!
# The time of a record and the sun: the loops over time in `create_2D_input`, aws2cosipy.py:623-645 and 717-739

Times are seconds since 1970-01-01T00:00 (proleptic Gregorian calendar, without leap seconds, as pandas counts).
-/

set_option autoImplicit false

namespace Cosipy

namespace Aws

/-- `df.index[t].dayofyear`, aws2cosipy.py:624 and 719: days of the running year including the present one. The calendar as in Python's
`datetime`: cycles of 400, 100, 4 years and 1 year counted from 0001-01-01 (719162 days before 1970-01-01). -/
def dayOfYear (t : Int) : Nat :=
  let n := (t / 86400 + 719162) % 146097
  let m := n % 36524 % 1461
  if n / 36524 = 4 ∨ m / 365 = 4 then 366 else (m % 365 + 1).toNat

/-- `df.index[t].hour`, aws2cosipy.py:625 and 720. -/
def hourOfDay (t : Int) : Nat := (t % 86400 / 3600).toNat

section
variable {α : Type} [Add α] [Sub α] [Mul α] [Div α] [Neg α] [LT α] [DecidableLT α] [BEq α] [Zero α] [OfScientific α]
  [NatCast α] [Transc α] [InvTrig α]

/-- The correction of the module Wohlfahrt2016 for one cell, aws2cosipy.py:623-643 (the aspect is changed to south = 0 before, line 620).
Simplification: a glacier cell without slope or aspect raises here; in the source its radiation is NaN and `check_for_nan` raises. -/
def wohlfahrt (lat lon timezoneLon zeniThld : α) (s : Static α) (t : Int) (g : α) : M α :=
  match s.slope, s.aspect with
  | some slope, some aspect =>
    RadCor.correctRadiation lat lon timezoneLon (dayOfYear t : α) (hourOfDay t : α) slope (aspect - 180.0) g zeniThld
  | _, _ => .error .value

/-- The radiation of one record with the module Moelg2009, aws2cosipy.py:718-739. -/
def moelgAt (vapour : α → α → α → α) (rows : List (RadCor.SolRow α)) (t : Int) (lat : α) (ny : Nat) (g : RadCor.RadGrids α)
    (shad : List (Nat → Nat → Option α)) (step : Nat) (tcart : α) : M (Nat → Nat → Option α) :=
  RadCor.moelgRadiation vapour rows (dayOfYear t) (hourOfDay t) lat ny g shad step tcart

end
end Aws
end Cosipy
