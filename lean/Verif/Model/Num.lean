import Mathlib.Data.Nat.Cast.Defs

/-!
# Arithmetic, exceptions, indices and loops

The model is polymorphic in the number type `α` and uses only *operations* on it, no laws.
Structural theorems therefore hold for IEEE doubles; numeric theorems instantiate `α` with
an ordered field.
-/

set_option autoImplicit false

namespace Cosipy

/-- Python exceptions that the modelled code can raise.
`diverge` is not an exception of Python: it is the outcome of a `while` loop that did not stop
within the fuel handed to the model (for instance cosipy/cpkernel/cosipy_core.py:256, 437 and
cosipy/cpkernel/io.py:144-166). -/
inductive Err where
  | index      -- IndexError: typed list / array index out of range
  | zeroDiv    -- ZeroDivisionError: numba (error_model="python") on scalar `x / 0`
  | value      -- ValueError
  | type       -- TypeError
  | attribute  -- AttributeError
  | key        -- KeyError
  | runtime    -- RuntimeError
  | notImpl    -- NotImplementedError
  | assertion  -- AssertionError
  | exit       -- SystemExit
  | file       -- FileNotFoundError
  | unbound    -- NameError / UnboundLocalError
  | eof        -- EOFError: `input()` at the end of the input
  | diverge    -- loop ran out of fuel
  deriving DecidableEq, Repr

/-- A Python call: either it returns a value or it raises (used for every function of the model, e.g.
cosipy/cpkernel/grid.py:163-179). -/
abbrev M (β : Type) := Except Err β

/-- Index rule of Python lists and of `numba.typed.List`: negative indices count from the end,
anything else outside `[0, n)` raises IndexError (as in cosipy/cpkernel/grid.py:163-362). -/
def normIdx (n : Nat) (i : Int) : Option Nat :=
  if 0 ≤ i then (if i < (n : Int) then some i.toNat else none)
  else if -(n : Int) ≤ i then some ((n : Int) + i).toNat else none

/-- `xs[i]` with the rule of `normIdx` (as in cosipy/cpkernel/grid.py:784-946). -/
def pyGet {β : Type} (xs : List β) (i : Int) : M β :=
  match normIdx xs.length i with
  | some k => match xs[k]? with
    | some x => .ok x
    | none => .error .index
  | none => .error .index

/-- `xs[i] = f(xs[i])` with the rule of `normIdx` (as in cosipy/cpkernel/grid.py:726-782). -/
def pyModify {β : Type} (xs : List β) (i : Int) (f : β → β) : M (List β) :=
  match normIdx xs.length i with
  | some k => .ok (xs.modify k f)
  | none => .error .index

/-- `del xs[i]` with the rule of `normIdx` (as in cosipy/cpkernel/grid.py:163-179). -/
def pyDel {β : Type} (xs : List β) (i : Int) : M (List β) :=
  match normIdx xs.length i with
  | some k => .ok (xs.eraseIdx k)
  | none => .error .index

/-- `xs.insert(i, x)`: Python clamps the position to `[0, n]` after wrapping negatives (as in
cosipy/cpkernel/grid.py:131-161, 488-517). -/
def pyInsert {β : Type} (xs : List β) (i : Int) (x : β) : List β :=
  let j : Int := if i < 0 then max 0 (i + xs.length) else i
  xs.insertIdx (min j.toNat xs.length) x

/-- A `while` loop. `body s = .ok none` means the condition is false (or `break`) and the loop
ends in state `s`; `body s = .ok (some s')` is one more pass (as in cosipy/cpkernel/grid.py:386-401, 448-469,
637-658 and cosipy/modules/heatEquation.py:36-47). -/
def whileM {σ : Type} (body : σ → M (Option σ)) : Nat → σ → M σ
  | 0, _ => .error .diverge
  | n + 1, s =>
    match body s with
    | .error e => .error e
    | .ok none => .ok s
    | .ok (some s') => whileM body n s'

section Arith
variable {α : Type} [Add α] [Sub α] [Mul α] [Div α] [Neg α] [LT α] [LE α]
  [DecidableLT α] [DecidableLE α] [BEq α] [Zero α] [One α] [NatCast α] [OfScientific α]

/-- Scalar division in numba-compiled code and on Python floats: `x / 0` raises
ZeroDivisionError (numba's default `error_model="python"`) (as in cosipy/cpkernel/grid.py:181-362). -/
def fdiv (x y : α) : M α := if y == 0 then .error .zeroDiv else .ok (x / y)

/-- Python `max(a, b)`: keeps the first argument unless the second is larger (as in
cosipy/cpkernel/cosipy_core.py:273, 329). -/
def pyMax (a b : α) : α := if a < b then b else a

/-- Python `min(a, b)`: keeps the first argument unless the second is smaller (as in
cosipy/cpkernel/cosipy_core.py:328). -/
def pyMin (a b : α) : α := if b < a then b else a

/-- Python `abs(a)` (as in cosipy/modules/secant.py:32-44). -/
def pyAbs (a : α) : α := if a < 0 then -a else a

/-- Python `sum(xs)` (left fold from 0) (as in cosipy/cpkernel/grid.py:948-954). -/
def pySum (xs : List α) : α := xs.foldl (· + ·) 0

end Arith

/-- Elementary functions used by the code (numpy `exp`, `log`, `sqrt`, `tanh`, `cos`, `sin`, `tan`,
`arctan`, real power). Operations only, no laws (as in cosipy/cpkernel/cosipy_core.py:241-253 and
cosipy/modules/surfaceTemperature.py:298-573). -/
class Transc (α : Type) where
  exp : α → α
  log : α → α
  sqrt : α → α
  tanh : α → α
  cos : α → α
  sin : α → α
  arctan : α → α
  pow : α → α → α
  pi : α

/-- `int(x)` on a float: truncation towards zero (as in cosipy/cpkernel/init.py:44, 74, 91). -/
class HasTrunc (α : Type) where
  trunc : α → Int

end Cosipy
