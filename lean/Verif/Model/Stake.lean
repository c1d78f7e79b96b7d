import Verif.Model.Core

/-!
# Stake evaluation: `cosipy/modules/evaluation.py` and the stake part of `cosipy/cpkernel/cosipy_core.py`

A missing value (NaN in a pandas column) is `none`. Times are of an arbitrary type with decidable equality; the index of
the measurements may contain a time more than once. `_df['mb'].loc[t] = v` is taken to write into `_df` (pandas before
copy-on-write). `x ** 0.5` is the square root. The table of observations is given by its columns.
-/

set_option autoImplicit false

namespace Cosipy
section
variable {α : Type} [Add α] [Sub α] [Mul α] [Div α] [Neg α] [LT α] [LE α]
  [DecidableLT α] [DecidableLE α] [BEq α] [Zero α] [One α] [NatCast α] [OfScientific α]
  [Transc α] {τ : Type} [DecidableEq τ]

/-- The frame `_df`, cosipy/cpkernel/cosipy_core.py:222-224: two columns over the times of the measurements. -/
structure SimTable (α : Type) where
  mb : List (Option α)
  snowheight : List (Option α)

/-- A frame of NaN, cosipy/cpkernel/cosipy_core.py:222-224. -/
def SimTable.init (index : List τ) : SimTable α :=
  ⟨index.map fun _ => none, index.map fun _ => none⟩

/-- `column.loc[t] = v`: every row labelled `t`, cosipy/cpkernel/cosipy_core.py:401-402. -/
def setLoc (index : List τ) (col : List (Option α)) (t : τ) (v : α) : List (Option α) :=
  List.zipWith (fun i x => if i = t then some v else x) index col

/-- The stake part of the time loop, cosipy/cpkernel/cosipy_core.py:398-402, for the state after the step at time `t`. -/
def recordStakes (c : Consts α) (names : List String) (index : List τ) (df : SimTable α) (t : τ) (s : SimState α) :
    M (SimTable α) :=
  if names = [] then .ok df
  else if t ∈ index then do
    let h ← s.grid.getTotalSnowheight c
    return ⟨setLoc index df.mb t s.mbCum, setLoc index df.snowheight t h⟩
  else .ok df

/-- The time loop with stake recording, cosipy/cpkernel/cosipy_core.py:229-456. The check of the number of layers comes
after the recording in the source and before it here; when it fails nothing is returned either way. -/
def runStakes (sv : Solvers α) (fuel : Nat) (c : Consts α) (r : RunCfg α) (names : List String) (index : List τ) :
    SimState α → SimTable α → List (τ × Forcing α) → M (SimState α × List (StepOut α) × SimTable α)
  | s, df, [] => .ok (s, [], df)
  | s, df, (t, f) :: rest => do
    let (s1, o) ← step sv fuel c r s f
    let df1 ← recordStakes c names index df t s1
    let (s2, os, df2) ← runStakes sv fuel c r names index s1 df1 rest
    return (s2, o :: os, df2)

/-- Residuals of rows in which neither value is missing, cosipy/modules/evaluation.py:44. -/
def residuals : List (Option α) → List (Option α) → List α
  | some a :: xs, some b :: ys => (a - b) :: residuals xs ys
  | _ :: xs, _ :: ys => residuals xs ys
  | _, _ => []

/-- `(residuals ** 2).mean() ** 0.5` of one column, cosipy/modules/evaluation.py:43-46; NaN is skipped, the mean of no
values is NaN. -/
def rmseColumn (obs sim : List (Option α)) : Option α :=
  match residuals obs sim with
  | [] => none
  | rs => some (Transc.sqrt (pySum (rs.map fun x => x * x) / (rs.length : α)))

/-- `stake_data[name]` (cosipy/modules/evaluation.py:44). -/
def stakeColumn (data : List (String × List (Option α))) (name : String) : M (List (Option α)) :=
  match data.find? (fun p => p.1 == name) with
  | some p => .ok p.2
  | none => .error .key

/-- The column of `_df` that is compared, cosipy/modules/evaluation.py:39-44. -/
def obsColumn (obsType : String) (df : SimTable α) : M (List (Option α)) :=
  if obsType = "mb" then .ok df.mb
  else if obsType = "snowheight" then .ok df.snowheight
  else .error .notImpl

/-- `rmse`, cosipy/modules/evaluation.py:28-48. -/
def rmse (obsType : String) (names : List String) (data : List (String × List (Option α))) (df : SimTable α) :
    M (List (String × Option α)) := do
  let sim ← obsColumn obsType df
  names.mapM fun n => do
    let col ← stakeColumn data n
    return (n, rmseColumn col sim)

/-- `evaluate`, cosipy/modules/evaluation.py:4-25. -/
def evaluate (evalMethod obsType : String) (names : List String) (data : List (String × List (Option α)))
    (df : SimTable α) : M (Option (List (String × Option α))) :=
  if evalMethod = "rmse" then do
    let r ← rmse obsType names data df
    return some r
  else .ok none

end
end Cosipy
