import Verif.Model.SurfaceTemp

/-!
# Checked divisions of the surface fluxes: `cosipy/modules/surfaceTemperature.py`
The flux routines of SurfaceTemp.lean again, with every division by something that is not a literal as the code performs it on numbers:
numba's default error model raises ZeroDivisionError when the divisor is zero. The order of the divisions within one expression does not
matter, since all of them raise the same exception. Divisions by literals stay plain.
-/

set_option autoImplicit false

namespace Cosipy
section
variable {α : Type} [Add α] [Sub α] [Mul α] [Div α] [Neg α] [LT α] [LE α]
  [DecidableLT α] [DecidableLE α] [BEq α] [Zero α] [One α] [NatCast α] [OfScientific α] [Transc α]

/-- `method_EW_Sonntag`, cosipy/modules/surfaceTemperature.py:558-574. -/
def methodEWSonntagD (t : α) : M α :=
  if 273.16 ≤ t then do
    let q ← fdiv (17.67 * (t - 273.16)) (t - 29.66)
    return 6.112 * Transc.exp q
  else do
    let q ← fdiv (22.46 * (t - 273.16)) (t - 0.55)
    return 6.112 * Transc.exp q

/-- `phi_m_stable`, cosipy/modules/surfaceTemperature.py:454-475. -/
def phiMStableD (wrf : Bool) (z l : α) : M α := do
  let zeta ← fdiv z l
  if 0 < zeta ∧ zeta ≤ 1 then return -5 * zeta
  else if 1 < zeta then
    if wrf then return -5.0 else return (1 - 5) * (1 + Transc.log zeta) - zeta
  else return 0

/-- `phi_m`, cosipy/modules/surfaceTemperature.py:478-500. -/
def phiMD (wrf : Bool) (z l : α) : M α :=
  if 0 < l then phiMStableD wrf z l
  else if l < 0 then do
    let q ← fdiv (16 * z) l
    let x := Transc.pow (1 - q) 0.25
    return 2 * Transc.log ((1 + x) / 2.0) + Transc.log ((1 + Transc.pow x 2) / 2.0) - 2 * Transc.arctan x
      + Transc.pi / 2.0
  else return 0

/-- `phi_tq`, cosipy/modules/surfaceTemperature.py:503-512. -/
def phiTqD (wrf : Bool) (z l : α) : M α :=
  if 0 < l then phiMStableD wrf z l
  else if l < 0 then do
    let q ← fdiv (19.3 * z) l
    let x := Transc.pow (1 - q) 0.25
    return 2 * Transc.log ((1 + Transc.pow x 2) / 2.0)
  else return 0

/-- `ustar`, cosipy/modules/surfaceTemperature.py:515-518. -/
def ustarD (wrf : Bool) (u2 z z0 l : α) : M α := do
  let r ← fdiv z z0
  let phi ← phiMD wrf z l
  fdiv (0.41 * u2) (Transc.log r - phi)

/-- `MO`, cosipy/modules/surfaceTemperature.py:521-529. -/
def moLengthD (c : Consts α) (rho ust t2 h : α) : M α :=
  if h == 0 then .ok 0
  else fdiv (rho * c.specHeatAir * Transc.pow ust 3 * t2) (0.41 * 9.81 * h)

/-- One pass of the Monin-Obukhov iteration, cosipy/modules/surfaceTemperature.py:333-361. -/
def moPassD (c : Consts α) (wrf : Bool) (i : EbInput α) (t0 rho lv q0 q2 cosSlope : α) (s : MoState α) :
    M (Option (MoState α)) :=
  if s.optim then do
    let z0t := i.z0 / 100
    let z0q := i.z0 / 10
    let ust ← ustarD wrf i.u2 i.z i.z0 s.l
    let t1 ← phiTqD wrf i.z s.l
    let t2 ← phiTqD wrf i.z0 s.l
    let deltaPhi := t1 - t2
    let r ← fdiv i.z i.z0
    let m1 ← phiMD wrf i.z s.l
    let m2 ← phiMD wrf i.z0 s.l
    let cd ← fdiv (Transc.pow 0.41 2) (Transc.pow (Transc.log r - m1 - m2) 2)
    let rt ← fdiv i.z z0t
    let csT ← fdiv (0.41 * Transc.sqrt cd) (Transc.log rt - deltaPhi)
    let rq ← fdiv i.z z0q
    let csQ ← fdiv (0.41 * Transc.sqrt cd) (Transc.log rq - deltaPhi)
    let h := sensibleHeatFlux c rho csT i.u2 (i.t2 - t0) cosSlope
    let le := latentHeatFlux rho lv csQ i.u2 (q2 - q0) cosSlope
    let l ← moLengthD c rho ust i.t2 h
    let small := match s.h0 with
      | none => false
      | some h0 => decide (pyAbs (h0 - h) < 0.1)
    return some
      { l := l, h0 := some h, optim := !(small || decide (5 < s.niter)), niter := s.niter + 1,
        csT := csT, csQ := csQ, h := h, le := le }
  else .ok none

/-- Bulk Richardson number, cosipy/modules/surfaceTemperature.py:370-372. -/
def bulkRiD (i : EbInput α) (t0 : α) : M α :=
  if i.u2 == 0 then .ok 0
  else fdiv (9.81 * (i.t2 - t0) * i.z) (i.t2 * Transc.pow i.u2 2)

/-- Incoming longwave radiation, cosipy/modules/surfaceTemperature.py:296-303. -/
def incomingLongwaveD (c : Consts α) (i : EbInput α) (ea : α) : M α :=
  match i.lwin, i.n with
  | none, some n => do
    let q ← fdiv (100 * ea) i.t2
    let epsCs := 0.23 + 0.433 * Transc.pow q (1 / 8)
    let epsTot := epsCs * (1 - Transc.pow n 2) + 0.984 * Transc.pow n 2
    return epsTot * c.sigma * Transc.pow i.t2 4
  | some l, _ => .ok l
  | none, none => .error .attribute

/-- The turbulent part of `eb_fluxes`: sensible and latent heat flux, Obukhov length and transfer coefficients,
cosipy/modules/surfaceTemperature.py:325-388. -/
def turbulentD (c : Consts α) (wrf : Bool) (i : EbInput α) (t0 rho lv q0 q2 cosSlope : α) : M (α × α × Option α × α × α) :=
  match c.stabilityCorrection with
  | .mo => do
    let s ← whileM (moPassD c wrf i t0 rho lv q0 q2 cosSlope) 8 ⟨0, none, true, 0, 0, 0, 0, 0⟩
    return (s.h, s.le, some s.l, s.csT, s.csQ)
  | .ri => do
    let r ← fdiv i.z i.z0
    let rt ← fdiv i.z (i.z0 / 100)
    let rq ← fdiv i.z (i.z0 / 10)
    let csT ← fdiv (Transc.pow 0.41 2) (Transc.log r * Transc.log rt)
    let csQ ← fdiv (Transc.pow 0.41 2) (Transc.log r * Transc.log rq)
    let ri ← bulkRiD i t0
    let phi := riPhi ri
    return (phi * sensibleHeatFlux c rho csT i.u2 (i.t2 - t0) cosSlope,
      phi * latentHeatFlux rho lv csQ i.u2 (q2 - q0) cosSlope, none, csT, csQ)
  | .other => .error .value

/-- `eb_fluxes`, cosipy/modules/surfaceTemperature.py:246-409. -/
def ebFluxesD (c : Consts α) (wrf : Bool) (g : Grid α) (i : EbInput α) (t0 : α) : M (Fluxes α) := do
  let ew ← methodEWSonntagD i.t2
  let ew0 ← methodEWSonntagD t0
  let lv := if c.zeroTemperature ≤ t0 then c.latHeatVaporize else c.latHeatSublimation
  let ea := (i.rh2 * ew) / 100
  let li ← incomingLongwaveD c i ea
  let m2 ← fdiv ew (i.p - ew)
  let m0 ← fdiv ew0 (i.p - ew0)
  let q2 := (i.rh2 * 0.622 * m2) / 100
  let q0 := (100 * 0.622 * m0) / 100
  let rho ← fdiv (i.p * 100) (287.058 * (i.t2 * (1 + 0.608 * q2)))
  let cosSlope := Transc.cos (i.slope * Transc.pi / 180)
  let (h, le, mol, csT, csQ) ← turbulentD c wrf i t0 rho lv q0 q2 cosSlope
  let lo := -c.surfaceEmissionCoeff * c.sigma * Transc.pow t0 4
  let top ← g.node 0
  let lam ← top.thermalConductivity c
  let hminus := c.zlt1
  let hplus := c.zlt2 - hminus
  let a1 ← fdiv hminus (hplus + hminus)
  let a2 ← fdiv (i.tz2 - i.tz1) hplus
  let a3 ← fdiv hplus (hplus + hminus)
  let a4 ← fdiv (i.tz1 - t0) hminus
  let b := lam * (a1 * a2 + a3 * a4)
  let rate ← fdiv (i.rain / 1000) i.dt
  let qrr := c.waterDensity * c.specHeatWater * rate * (i.t2 - t0)
  return ⟨li, lo, h, le, b, qrr, rho, lv, mol, csT, csQ, q0, q2⟩

end
end Cosipy
