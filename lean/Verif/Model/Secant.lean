import Verif.Model.Num

/-!
# Secant solver: `cosipy/modules/secant.py`
The unknown is a 1-element array in the code; here a number. Array division does not raise, so `/` is
used; property C36 shows that its denominators are never zero. `np.isclose` (55-91) is the finite case
`|a - b| <= atol + rtol*|b|`; for non-finite values the code also accepts equal infinities.
-/

set_option autoImplicit false

namespace Cosipy
section
variable {α : Type} [Add α] [Sub α] [Mul α] [Div α] [Neg α] [LT α] [LE α]
  [DecidableLT α] [DecidableLE α] [BEq α] [Zero α] [One α] [NatCast α] [OfScientific α]

/-- `np.isclose(a, b, rtol, atol)`, cosipy/modules/secant.py:55-91, finite case. -/
def isClose (a b rtol atol : α) : Bool := decide (pyAbs (a - b) ≤ atol + rtol * pyAbs b)

/-- The update formula, cosipy/modules/secant.py:41-44. -/
def secantPoint (p0 p1 q0 q1 : α) : α :=
  if pyAbs q0 < pyAbs q1 then (-q0 / q1 * p1 + p0) / (1 - q0 / q1)
  else (-q1 / q0 * p0 + p1) / (1 - q1 / q0)

/-- The `for itr in range(maxiter)` loop, cosipy/modules/secant.py:34-52, with `n` iterations left. `calls` is
`funcalls`. After the last iteration the code returns `p`, which equals `p1`. -/
def secantLoop (f : α → M α) (tol rtol : α) : Nat → α → α → α → α → Nat → M (α × Nat)
  | 0, _, p1, _, _, calls => .ok (p1, calls)
  | n + 1, p0, p1, q0, q1, calls =>
    if q1 == q0 then
      if p1 == p0 then .ok ((p1 + p0) / 2.0, calls) else .error .runtime
    else
      let p := secantPoint p0 p1 q0 q1
      if isClose p p1 rtol tol then .ok (p, calls)
      else do
        let q ← f p
        secantLoop f tol rtol n p1 p q1 q (calls + 1)

/-- Second start value, cosipy/modules/secant.py:24-27. -/
def secantStart (x0 : α) : α :=
  let p1 := x0 * (1 + 0.0001)
  if 0 ≤ p1 then p1 + 0.0001 else p1 + -0.0001

/-- `secant`, cosipy/modules/secant.py:7-52. Returns the value and the number of function evaluations. -/
def secant (f : α → M α) (x0 tol : α) (maxiter : Nat) (x1 : Option α) (rtol : α) : M (α × Nat) := do
  if maxiter = 0 then .error .assertion
  else if ¬ (0 < tol) then .error .assertion
  else
    let p1 ← match x1 with
      | some x => if x == x0 then .error .value else .ok x
      | none => .ok (secantStart x0)
    let p0 := x0
    let q0 ← f p0
    let q1 ← f p1
    if pyAbs q1 < pyAbs q0 then secantLoop f tol rtol maxiter p1 p0 q1 q0 2
    else secantLoop f tol rtol maxiter p0 p1 q0 q1 2

end
end Cosipy
