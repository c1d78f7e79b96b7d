import Verif.Model.Core

/-!
# Selection of the optional inputs: `cosipy/cpkernel/cosipy_core.py`, 167-211
The data of one grid cell, with the inputs that may be missing, and what the time loop sees of them.
-/

set_option autoImplicit false

namespace Cosipy

/-- Input of one grid cell, cosipy/cpkernel/cosipy_core.py:167-211: `DATA.T2.values` … `DATA.U2.values` and the optional
`SNOWFALL`, `RRR`, `LWin`, `N` (`none`: the variable is not in `DATA`). All arrays have the length of the time dimension
`nt`; a dataset cannot hold other lengths. -/
structure CellData (α : Type) where
  nt : Nat
  t2 : List α
  rh2 : List α
  pres : List α
  g : List α
  u2 : List α
  snowfall : Option (List α)
  rrr : Option (List α)
  lwin : Option (List α)
  n : Option (List α)

/-- The settings that steer the selection: `mult_factor_RRR` (constants.toml), `force_use_TP`, `force_use_N`
(config.toml) (cosipy/cpkernel/cosipy_core.py:76, 191, 206). -/
structure SelectCfg (α : Type) where
  multFactor : α
  forceTP : Bool
  forceN : Bool

/-- The selected optional inputs: `SNOWF`, `RRR`, `LWin`, `N` after cosipy/cpkernel/cosipy_core.py:207. `N` is never
`None`, but it may be an array of `None`. -/
structure Selected (α : Type) where
  snowf : Option (List α)
  rrr : Option (List α)
  lwin : Option (List α)
  n : List (Option α)

/-- Access to a variable of a dataset that may be missing: `DATA.RRR` raises AttributeError (as in
cosipy/cpkernel/cosipy_core.py:179-203). -/
def dataVar {β : Type} : Option β → M β
  | some x => .ok x
  | none => .error .attribute

section
variable {α : Type} [Mul α]

/-- `DATA.X.values * mult_factor_RRR`, cosipy/cpkernel/cosipy_core.py:179-188. -/
def scaleBy (k : α) (xs : List α) : List α := xs.map fun x => x * k

/-- Precipitation inputs, cosipy/cpkernel/cosipy_core.py:179-192. -/
def selectPrecip (cfg : SelectCfg α) (d : CellData α) : M (Option (List α) × Option (List α)) := do
  let sr ← (match d.snowfall, d.rrr with
    | some s, some r => .ok (some (scaleBy cfg.multFactor s), some (scaleBy cfg.multFactor r))
    | some s, none => .ok (some (scaleBy cfg.multFactor s), none)
    | none, r => (dataVar r).map fun r => (none, some (scaleBy cfg.multFactor r)) : M _)
  return (if cfg.forceTP then none else sr.1, sr.2)

/-- Longwave inputs, cosipy/cpkernel/cosipy_core.py:194-207. -/
def selectLongwave (cfg : SelectCfg α) (d : CellData α) : M (Option (List α) × List (Option α)) := do
  let ln ← (match d.lwin, d.n with
    | some l, some n => .ok (some l, n.map some)
    | some l, none => .ok (some l, List.replicate d.nt none)
    | none, n => (dataVar n).map fun n => (none, n.map some) : M _)
  return (if cfg.forceN then none else ln.1, ln.2)

/-- cosipy/cpkernel/cosipy_core.py:179-207. -/
def selectInputs (cfg : SelectCfg α) (d : CellData α) : M (Selected α) := do
  let sr ← selectPrecip cfg d
  let ln ← selectLongwave cfg d
  return ⟨sr.1, sr.2, ln.1, ln.2⟩

/-- `X[t]` for an array that may be `None`; `None` is passed on (cosipy/cpkernel/cosipy_core.py:246-256, 306-322). -/
def optAt {β : Type} (xs : Option (List β)) (t : Nat) : M (Option β) :=
  match xs with
  | none => .ok none
  | some l => (pyGet l t).map some

/-- What step `t` reads, cosipy/cpkernel/cosipy_core.py:240-322. The three calls of `update_surface_temperature` at 306-322
pass `LWin[t]` and `N[t]` where the arrays are not `None`, else nothing. -/
def forcingAt (d : CellData α) (s : Selected α) (t : Nat) : M (Forcing α) := do
  let t2 ← pyGet d.t2 t
  let rh2 ← pyGet d.rh2 t
  let pres ← pyGet d.pres t
  let g ← pyGet d.g t
  let u2 ← pyGet d.u2 t
  let snowf ← optAt s.snowf t
  let rrr ← optAt s.rrr t
  let lwin ← optAt s.lwin t
  let n ← pyGet s.n t
  return ⟨t2, rh2, pres, g, u2, snowf, rrr, lwin, n⟩

/-- The forcing of all time steps, cosipy/cpkernel/cosipy_core.py:167-322. Indexing errors would show up at step `t` and
not before the loop; with arrays of length `nt` there are none (`C57_prepare`). -/
def prepare (cfg : SelectCfg α) (d : CellData α) : M (List (Forcing α)) := do
  let s ← selectInputs cfg d
  (List.range d.nt).mapM (forcingAt d s)

end

section
variable {α : Type} [Add α] [Sub α] [Mul α] [Div α] [Neg α] [LT α] [LE α]
  [DecidableLT α] [DecidableLE α] [BEq α] [Zero α] [One α] [NatCast α] [OfScientific α]
  [Transc α]

/-- Selection and time loop of a standalone simulation, cosipy/cpkernel/cosipy_core.py:166-511. Without time steps the
variable `t` used at 496-498 does not exist (UnboundLocalError). -/
def simulateCell (sv : Solvers α) (fuel : Nat) (c : Consts α) (r : RunCfg α) (cfg : SelectCfg α) (s : SimState α)
    (d : CellData α) : M (SimState α × List (StepOut α)) := do
  let fs ← prepare cfg d
  let o ← run sv fuel c r s fs
  match fs with
  | [] => .error .unbound
  | _ => return o

end
end Cosipy
