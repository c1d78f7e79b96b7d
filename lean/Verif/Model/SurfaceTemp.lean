import Verif.Model.Grid
import Verif.Model.Secant

/-!
# Surface energy balance: `cosipy/modules/surfaceTemperature.py`
Temperatures that are 1-element arrays in the code are numbers here. Divisions inside the flux formulas are
plain `/`. Those that Python checks, and when they raise ZeroDivisionError, are in Model/Divisions (C119). Printing is omitted.
-/

set_option autoImplicit false

namespace Cosipy
section
variable {α : Type} [Add α] [Sub α] [Mul α] [Div α] [Neg α] [LT α] [LE α]
  [DecidableLT α] [DecidableLE α] [BEq α] [Zero α] [One α] [NatCast α] [OfScientific α]

/-- Cumulative sums (`np.cumsum`), cosipy/modules/surfaceTemperature.py:210. -/
def cumsumFrom : α → List α → List α
  | _, [] => []
  | s, h :: hs => (s + h) :: cumsumFrom (s + h) hs

/-- `np.argmin`: first index of the smallest entry (cosipy/modules/surfaceTemperature.py:184); recursion state: index of and
smallest value so far, index of the head. -/
def argminFrom : Nat → α → Nat → List α → Nat
  | best, _, _, [] => best
  | best, v, i, x :: xs => if x < v then argminFrom i x (i + 1) xs else argminFrom best v (i + 1) xs

/-- `np.argmin` of a whole array; ValueError when it is empty (cosipy/modules/surfaceTemperature.py:184). -/
def argmin : List α → M Nat
  | [] => .error .value
  | x :: xs => .ok (argminFrom 0 x 1 xs)

/-- `get_subsurface_temperature`, cosipy/modules/surfaceTemperature.py:170-198. Index `-1` wraps to the last layer. -/
def getSubsurfaceTemperature (g : Grid α) (cum : List α) (zlt : α) : M α := do
  let i1 ← argmin (cum.map fun x => pyAbs (x - zlt))
  let d1 ← pyGet cum (i1 : Int)
  let i2 : Int := if zlt < d1 then (i1 : Int) - 1 else (i1 : Int) + 1
  let n1 ← g.node (i1 : Int)
  let n2 ← g.node i2
  let d2 ← pyGet cum i2
  let slope ← fdiv (n1.temperature - n2.temperature) (d1 - d2)
  return n1.temperature + slope * (zlt - d1)

/-- `interp_subT`, cosipy/modules/surfaceTemperature.py:201-215. -/
def interpSubT (c : Consts α) (g : Grid α) : M (α × α) := do
  let hs ← g.getHeight
  let cum := cumsumFrom 0 hs
  let t1 ← getSubsurfaceTemperature g cum c.zlt1
  let t2 ← getSubsurfaceTemperature g cum c.zlt2
  return (t1, t2)

variable [Transc α]

/-- `method_EW_Sonntag`, cosipy/modules/surfaceTemperature.py:558-574. -/
def methodEWSonntag (t : α) : α :=
  if 273.16 ≤ t then 6.112 * Transc.exp ((17.67 * (t - 273.16)) / (t - 29.66))
  else 6.112 * Transc.exp ((22.46 * (t - 273.16)) / (t - 0.55))

/-- `get_sensible_heat_flux`, cosipy/modules/surfaceTemperature.py:413-430. -/
def sensibleHeatFlux (c : Consts α) (rho csT u2 dT cosSlope : α) : α :=
  rho * c.specHeatAir * csT * u2 * dT * cosSlope

/-- `get_latent_heat_flux`, cosipy/modules/surfaceTemperature.py:433-451. -/
def latentHeatFlux (rho lv csQ u2 dq cosSlope : α) : α := rho * lv * csQ * u2 * dq * cosSlope

/-- `phi_m_stable`, cosipy/modules/surfaceTemperature.py:454-475. `wrf` is `WRF_X_CSPY`. -/
def phiMStable (wrf : Bool) (z l : α) : α :=
  let zeta := z / l
  if 0 < zeta ∧ zeta ≤ 1 then -5 * zeta
  else if 1 < zeta then
    if wrf then -5.0 else (1 - 5) * (1 + Transc.log zeta) - zeta
  else 0

/-- `phi_m`, cosipy/modules/surfaceTemperature.py:478-500. -/
def phiM (wrf : Bool) (z l : α) : α :=
  if 0 < l then phiMStable wrf z l
  else if l < 0 then
    let x := Transc.pow (1 - 16 * z / l) 0.25
    2 * Transc.log ((1 + x) / 2.0) + Transc.log ((1 + Transc.pow x 2) / 2.0) - 2 * Transc.arctan x
      + Transc.pi / 2.0
  else 0

/-- `phi_tq`, cosipy/modules/surfaceTemperature.py:503-512. -/
def phiTq (wrf : Bool) (z l : α) : α :=
  if 0 < l then phiMStable wrf z l
  else if l < 0 then
    let x := Transc.pow (1 - 19.3 * z / l) 0.25
    2 * Transc.log ((1 + Transc.pow x 2) / 2.0)
  else 0

/-- `ustar`, cosipy/modules/surfaceTemperature.py:515-518. -/
def ustar (wrf : Bool) (u2 z z0 l : α) : α := (0.41 * u2) / (Transc.log (z / z0) - phiM wrf z l)

/-- `MO`, cosipy/modules/surfaceTemperature.py:521-529. -/
def moLength (c : Consts α) (rho ust t2 h : α) : α :=
  if h == 0 then 0
  else (rho * c.specHeatAir * Transc.pow ust 3 * t2) / (0.41 * 9.81 * h)

/-- Meteorological inputs of the flux computation that stay fixed during a step
(cosipy/modules/surfaceTemperature.py:250-264). -/
structure EbInput (α : Type) where
  dt : α
  z : α
  z0 : α
  t2 : α
  rh2 : α
  p : α
  u2 : α
  rain : α
  slope : α
  tz1 : α
  tz2 : α
  lwin : Option α
  n : Option α

/-- Result of `eb_fluxes`, cosipy/modules/surfaceTemperature.py:266-281. `mol` is None for the Ri scheme. -/
structure Fluxes (α : Type) where
  li : α
  lo : α
  h : α
  le : α
  b : α
  qrr : α
  rho : α
  lv : α
  mol : Option α
  csT : α
  csQ : α
  q0 : α
  q2 : α

/-- State of the Monin-Obukhov iteration, cosipy/modules/surfaceTemperature.py:326-330. `h0 = none` is `inf`. -/
structure MoState (α : Type) where
  l : α
  h0 : Option α
  optim : Bool
  niter : Nat
  csT : α
  csQ : α
  h : α
  le : α

/-- One pass of the Monin-Obukhov iteration, cosipy/modules/surfaceTemperature.py:333-361. -/
def moPass (c : Consts α) (wrf : Bool) (i : EbInput α) (t0 rho lv q0 q2 cosSlope : α) (s : MoState α) :
    M (Option (MoState α)) :=
  if s.optim then
    let z0t := i.z0 / 100
    let z0q := i.z0 / 10
    let ust := ustar wrf i.u2 i.z i.z0 s.l
    let deltaPhi := phiTq wrf i.z s.l - phiTq wrf i.z0 s.l
    let cd := Transc.pow 0.41 2 /
      Transc.pow (Transc.log (i.z / i.z0) - phiM wrf i.z s.l - phiM wrf i.z0 s.l) 2
    let csT := 0.41 * Transc.sqrt cd / (Transc.log (i.z / z0t) - deltaPhi)
    let csQ := 0.41 * Transc.sqrt cd / (Transc.log (i.z / z0q) - deltaPhi)
    let h := sensibleHeatFlux c rho csT i.u2 (i.t2 - t0) cosSlope
    let le := latentHeatFlux rho lv csQ i.u2 (q2 - q0) cosSlope
    let l := moLength c rho ust i.t2 h
    let small := match s.h0 with
      | none => false
      | some h0 => decide (pyAbs (h0 - h) < 0.1)
    .ok (some
      { l := l, h0 := some h, optim := !(small || decide (5 < s.niter)), niter := s.niter + 1,
        csT := csT, csQ := csQ, h := h, le := le })
  else .ok none

/-- `phi` of the Richardson scheme, cosipy/modules/surfaceTemperature.py:375-379. -/
def riPhi (ri : α) : α :=
  if 0.01 < ri ∧ ri ≤ 0.2 then Transc.pow (1 - 5 * ri) 2
  else if 0.2 < ri then 0
  else 1

/-- Bulk Richardson number, cosipy/modules/surfaceTemperature.py:370-372. -/
def bulkRi (i : EbInput α) (t0 : α) : α :=
  if i.u2 == 0 then 0
  else (9.81 * (i.t2 - t0) * i.z) / (i.t2 * Transc.pow i.u2 2)

/-- Incoming longwave radiation, cosipy/modules/surfaceTemperature.py:296-303 (`None.item()` raises). -/
def incomingLongwave (c : Consts α) (i : EbInput α) (ea : α) : M α :=
  match i.lwin, i.n with
  | none, some n =>
    let epsCs := 0.23 + 0.433 * Transc.pow (100 * ea / i.t2) (1 / 8)
    let epsTot := epsCs * (1 - Transc.pow n 2) + 0.984 * Transc.pow n 2
    .ok (epsTot * c.sigma * Transc.pow i.t2 4)
  | some l, _ => .ok l
  | none, none => .error .attribute

/-- `eb_fluxes`, cosipy/modules/surfaceTemperature.py:246-409. The iteration is given fuel 8; property C37 shows
that it never runs out. -/
def ebFluxes (c : Consts α) (wrf : Bool) (g : Grid α) (i : EbInput α) (t0 : α) : M (Fluxes α) := do
  let ew := methodEWSonntag i.t2
  let ew0 := methodEWSonntag t0
  let lv := if c.zeroTemperature ≤ t0 then c.latHeatVaporize else c.latHeatSublimation
  let ea := (i.rh2 * ew) / 100
  let li ← incomingLongwave c i ea
  let q2 := (i.rh2 * 0.622 * (ew / (i.p - ew))) / 100
  let q0 := (100 * 0.622 * (ew0 / (i.p - ew0))) / 100
  let rho := (i.p * 100) / (287.058 * (i.t2 * (1 + 0.608 * q2)))
  let cosSlope := Transc.cos (i.slope * Transc.pi / 180)
  let (h, le, mol, csT, csQ) ← (match c.stabilityCorrection with
    | .mo => do
      let s ← whileM (moPass c wrf i t0 rho lv q0 q2 cosSlope) 8
        ⟨0, none, true, 0, 0, 0, 0, 0⟩
      return (s.h, s.le, some s.l, s.csT, s.csQ)
    | .ri =>
      let z0t := i.z0 / 100
      let z0q := i.z0 / 10
      let csT := Transc.pow 0.41 2 / (Transc.log (i.z / i.z0) * Transc.log (i.z / z0t))
      let csQ := Transc.pow 0.41 2 / (Transc.log (i.z / i.z0) * Transc.log (i.z / z0q))
      let phi := riPhi (bulkRi i t0)
      .ok (phi * sensibleHeatFlux c rho csT i.u2 (i.t2 - t0) cosSlope,
        phi * latentHeatFlux rho lv csQ i.u2 (q2 - q0) cosSlope, none, csT, csQ)
    | .other => .error .value : M (α × α × Option α × α × α))
  let lo := -c.surfaceEmissionCoeff * c.sigma * Transc.pow t0 4
  let top ← g.node 0
  let lam ← top.thermalConductivity c
  let hminus := c.zlt1
  let hplus := c.zlt2 - hminus
  let b := lam * ((hminus / (hplus + hminus)) * ((i.tz2 - i.tz1) / hplus)
    + (hplus / (hplus + hminus)) * ((i.tz1 - t0) / hminus))
  let qrr := c.waterDensity * c.specHeatWater * (i.rain / 1000 / i.dt) * (i.t2 - t0)
  return ⟨li, lo, h, le, b, qrr, rho, lv, mol, csT, csQ, q0, q2⟩

/-- `eb_optim`, cosipy/modules/surfaceTemperature.py:533-554: the signed residual for Newton and Secant, its absolute
value otherwise. -/
def ebOptim (c : Consts α) (wrf : Bool) (g : Grid α) (i : EbInput α) (swnet t0 : α) : M α := do
  let f ← ebFluxes c wrf g i t0
  let r := swnet + f.li + f.lo + f.h + f.le + f.b + f.qrr
  match c.sfcTemperatureMethod with
  | .newton => return r
  | .secant => return r
  | _ => return pyAbs r

/-- The external solvers: `scipy.optimize.newton` and `scipy.optimize.minimize(…).x` (cosipy/modules/surfaceTemperature.py:80-108).
They are not modelled: every theorem quantifies over them. `minimize method f x0 lower upper`. -/
structure Solvers (α : Type) where
  newton : (α → M α) → α → M α
  minimize : SfcMethod → (α → M α) → α → α → α → M α

/-- `check_residual_clip`, cosipy/modules/surfaceTemperature.py:131-147. -/
def checkResidualClip (residual lower : α) : M Unit := if residual < lower then .error .value else .ok ()

/-- `try: a except (RuntimeError, ValueError): b` (as in cosipy/modules/surfaceTemperature.py:87-108). -/
def tryExcept {β : Type} (a b : M β) : M β :=
  match a with
  | .error .runtime => b
  | .error .value => b
  | r => r

/-- Solver dispatch of `update_surface_temperature`, cosipy/modules/surfaceTemperature.py:75-110, 150-167, for an
objective `f` and an initial guess. -/
def solveSurfaceTemperature (sv : Solvers α) (c : Consts α) (f : α → M α) (guess : α) : M α :=
  match c.sfcTemperatureMethod with
  | .lbfgsb => sv.minimize .lbfgsb f guess 220 330
  | .slsqp => sv.minimize .slsqp f guess 220 330
  | .newton => tryExcept
      (do
        let r ← sv.newton f guess
        checkResidualClip r 220
        return r)
      (sv.minimize .slsqp f guess 220 330)
  | .secant => tryExcept
      (do
        let (r, _) ← secant f guess 0.01 50 none 0
        if r < 220 then .error .value
        else
          checkResidualClip r 220
          return r)
      (sv.minimize .slsqp f guess 220 c.zeroTemperature)
  | .other => .error .notImpl

/-- `update_surface_temperature`, cosipy/modules/surfaceTemperature.py:25-128. `mk` builds the flux inputs from the
two interpolated subsurface temperatures. Returns grid, surface temperature, fluxes. -/
def updateSurfaceTemperature (sv : Solvers α) (c : Consts α) (wrf : Bool) (g : Grid α)
    (mk : α → α → EbInput α) (swnet : α) : M (Grid α × α × Fluxes α) := do
  let (tz1, tz2) ← interpSubT c g
  let i := mk tz1 tz2
  let top ← g.node 0
  let guess := pyMin top.temperature 270
  let r ← solveSurfaceTemperature sv c (ebOptim c wrf g i swnet) guess
  let ts := pyMin c.zeroTemperature r
  let g ← g.setNodeTemperature 0 ts
  let f ← ebFluxes c wrf g i ts
  return (g, ts, f)

end
end Cosipy
