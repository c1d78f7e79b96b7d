import Verif.Model.Kernel
import Verif.Model.Program

/-!
# The files about stakes: COSIPY.py:174-222, 311-331

What the main loop passes to the simulations of the cells and what it writes to `stake_statistics.csv` and
`stake_simulations.csv`. The rounding of the files to two digits is not modelled.
-/

set_option autoImplicit false

namespace Cosipy.Program
section
variable {α τ : Type}

/-- The stake inputs of a cell, COSIPY.py:214-222, 230: the names of its stakes and the table of all measurements. -/
def stakesAt (cells : List ((Nat × Nat) × String)) (index : List τ) (data : List (String × List (Option α)))
    (evalMethod obsType : String) (y x : Nat) : StakeInput α τ :=
  ⟨stakeNames cells y x, index, data, evalMethod, obsType⟩

/-- `stake_evaluation` with an `obs_type`, COSIPY.py:311-321. -/
def stakeCfg (obsType : String) : StakeCfg := ⟨true, obsType == "mb", obsType == "snowheight"⟩

/-- A column of `stake_simulations.csv`, COSIPY.py:185, 316-321, 331: `df_val` is a copy of the measurements, in which the
columns of evaluated stakes are replaced. `vals` are the replaced columns. A missing value is `fill`. -/
def simulationColumn (fill : α) (rows : Nat) (data : List (String × List (Option α))) (vals : Store (Val α))
    (name : String) : Option (List α) :=
  match vals name with
  | some v => some ((List.range rows).map fun j => v.val j 0)
  | none => (data.lookup name).map fun col => col.map fun x => x.getD fill

end
end Cosipy.Program
