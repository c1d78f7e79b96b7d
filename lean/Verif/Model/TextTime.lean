import Mathlib.Data.List.Lex
import Mathlib.Data.List.Basic

/-!
# Times written as text

Model of cosipy/utilities/wrf2cosipy/wrf2cosipy.py:55-60 and of selecting a period from such a file (cosipy/cpkernel/io.py:284, 315):
the time coordinate of a file prepared from WRF is text, and text is compared character by character. The check that the period overlaps
the file (io.py:285-305) is not modelled; it parses the text as dates.
-/

set_option autoImplicit false

namespace Cosipy.TextTime

/-- A moment as a calendar shows it, to the minute (cosipy/utilities/wrf2cosipy/wrf2cosipy.py:56). -/
structure Clock where
  year : Nat
  month : Nat
  day : Nat
  hour : Nat
  minute : Nat
  deriving DecidableEq, Repr

/-- A decimal digit, as its character code: `'0'` is 48 (wrf2cosipy.py:56). -/
def digit (n : Nat) : Nat := 48 + n % 10

/-- `%m`, `%d`, `%H`, `%M`: two digits (wrf2cosipy.py:56). -/
def two (n : Nat) : List Nat := [digit (n / 10), digit n]

/-- `%Y` for a year of four digits (wrf2cosipy.py:56). -/
def four (n : Nat) : List Nat := [digit (n / 1000), digit (n / 100), digit (n / 10), digit n]

/-- The character codes of `-`, `:` and `T` (wrf2cosipy.py:56, config.toml:5-6). -/
def hyphen : Nat := 45
/-- As above (config.toml:5-6). -/
def colon : Nat := 58
/-- As above (wrf2cosipy.py:56). -/
def letterT : Nat := 84

/-- `%Y-%m-%d`, as in the dates of the command line (wrf2cosipy.py:56, 59-60). -/
def dayLabel (t : Clock) : List Nat := four t.year ++ hyphen :: two t.month ++ hyphen :: two t.day

/-- `strftime('%Y-%m-%dT%H-%M')`: the text of a time in the prepared file, as character codes, wrf2cosipy.py:56. -/
def wrfLabel (t : Clock) : List Nat := dayLabel t ++ letterT :: two t.hour ++ hyphen :: two t.minute

/-- The text of a time in the configuration, `YYYY-mm-ddTHH:MM` (config.toml:5-6). -/
def cfgLabel (t : Clock) : List Nat := dayLabel t ++ letterT :: two t.hour ++ colon :: two t.minute

/-- Text is compared character by character (wrf2cosipy.py:60, cosipy/cpkernel/io.py:284, 315). -/
def textLe (a b : List Nat) : Bool := !decide (List.Lex (· < ·) b a)

/-- `sel(time=slice(start, end))` on a coordinate of text in order: both ends inclusive, compared as text (wrf2cosipy.py:60,
cosipy/cpkernel/io.py:315). Positions keep their records. -/
def selText {β : Type} (start stop : List Nat) (d : List (List Nat × β)) : List (List Nat × β) :=
  d.filter fun p => textLe start p.1 && textLe p.1 stop

/-- The prepared file: times as text with their records, wrf2cosipy.py:56, 64. -/
def prepared {β : Type} (d : List (Clock × β)) : List (List Nat × β) := d.map fun p => (wrfLabel p.1, p.2)

/-- The records of the prepared file a simulation uses, cosipy/cpkernel/io.py:315. -/
def simulated {β : Type} (start stop : Clock) (d : List (Clock × β)) : List (List Nat × β) :=
  selText (cfgLabel start) (cfgLabel stop) (prepared d)

/-- The records wrf2cosipy keeps for the days given on the command line, wrf2cosipy.py:59-60. -/
def keptDays {β : Type} (start stop : Clock) (d : List (Clock × β)) : List (List Nat × β) :=
  selText (dayLabel start) (dayLabel stop) (prepared d)

end Cosipy.TextTime
