import Verif.Model.Num

/-!
# cosipy-setup

Model of cosipy/utilities/setup_cosipy/setup_cosipy.py:74-164. The state survives exceptions: a run returns the files it
leaves behind together with what it raised, if anything. Arguments: `Switches.lean`. Not modelled: `os.makedirs`, permissions,
links, interruption in the middle of copying one file.
-/

set_option autoImplicit false

namespace Cosipy
namespace Setup

/-- Contents of the regular files, by directory and base name (`f"{dir}/{base}"`) (setup_cosipy.py:77-122). -/
abbrev Files := String → String → Option String

/-- `shutil.copyfile(source, target)`, setup_cosipy.py:120. -/
def Files.write (fs : Files) (dir base content : String) : Files :=
  fun d b => if d = dir ∧ b = base then some content else fs d b

/-- State of a run: the files, the lines the user will still type, and the prompts answered so far (base name, line
typed), oldest first (setup_cosipy.py:96-164). -/
structure State where
  fs : Files
  answers : List String
  log : List (String × String)

/-- `get_user_confirmation`, setup_cosipy.py:124-137. `norm` is `lower().strip()`. `depth` is the number of nested calls
Python still allows (RecursionError, a RuntimeError); `input` raises EOFError when there is no further line. -/
def confirm (norm : String → String) (base : String) : Nat → State → State × M Bool
  | 0, s => (s, .error .runtime)
  | depth + 1, s =>
    match s.answers with
    | [] => (s, .error .eof)
    | a :: rest =>
      let s := { s with answers := rest, log := s.log ++ [(base, a)] }
      if !(["y", "yes", "n", "no", ""].contains (norm a)) then confirm norm base depth s
      else (s, .ok (["y", "yes"].contains (norm a)))

/-- The copy at the end of `copy_file_to_target`, setup_cosipy.py:119-122; a missing source raises FileNotFoundError. -/
def finish (base source target : String) (s : State) (overwrite : Bool) : State × M Unit :=
  if overwrite then
    match s.fs source base with
    | some content => ({ s with fs := s.fs.write target base content }, .ok ())
    | none => (s, .error .file)
  else (s, .ok ())

/-- `copy_file_to_target`, setup_cosipy.py:96-122. -/
def copyFile (norm : String → String) (depth : Nat) (base source target : String) (silent : Bool) (s : State) :
    State × M Unit :=
  if silent = false ∧ (s.fs target base).isSome = true then
    match confirm norm base depth s with
    | (s', .ok overwrite) => finish base source target s' overwrite
    | (s', .error e) => (s', .error e)
  else finish base source target s true

/-- The four files, setup_cosipy.py:150-155. -/
def configFiles : List String := ["config.toml", "constants.toml", "slurm_config.toml", "utilities_config.toml"]

/-- The loop of `main`, setup_cosipy.py:156-163, with `check_file_exists` (74-76). -/
def copyAll (norm : String → String) (depth : Nat) (source target : String) (silent : Bool) :
    List String → State → State × M Unit
  | [], s => (s, .ok ())
  | base :: files, s =>
    match s.fs source base with
    | none => (s, .error .file)
    | some _ =>
      match copyFile norm depth base source target silent s with
      | (s', .ok ()) => copyAll norm depth source target silent files s'
      | (s', .error e) => (s', .error e)

/-- `main`, setup_cosipy.py:139-163. `outputPath` is the argument of -o; an empty one counts as missing. -/
def main (norm : String → String) (depth : Nat) (sample cwd : String) (outputPath : Option String) (silent : Bool)
    (fs : Files) (answers : List String) : State × M Unit :=
  let target := match outputPath with
    | none => cwd
    | some p => if p = "" then cwd else p
  if target = sample then (⟨fs, answers, []⟩, .error .value)
  else copyAll norm depth sample target silent configFiles ⟨fs, answers, []⟩

end Setup
end Cosipy
