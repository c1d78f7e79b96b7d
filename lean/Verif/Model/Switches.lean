import Verif.Model.CommandLine
import Verif.Model.Setup
import Verif.Model.FieldPlot

/-!
# Command lines with switches

Model of the command lines of cosipy-setup (cosipy/utilities/setup_cosipy/setup_cosipy.py:29-72, 139-148), cosipy-plot-field
(cosipy/postprocessing/field_plots/plot_cosipy_fields.py:382-497) and cosipy-plot-vtk (cosipy/postprocessing/vtk_plots/plot_cosipy_fields_vtk.py:12-26,
480-549): parsers with options that take a value and switches (`action="store_true"`), several of which can share one dash. How arguments are recognised
is that of `CommandLine.lean`; the rest follows CPython 3.11, argparse.py:1986-2134, and is trusted to be right.
-/

set_option autoImplicit false

namespace Cosipy.Cli

/-- How such a program ends before its work: help was printed, or the command line was rejected (argparse.py, `parser.error`). -/
inductive Stop where
  | help | usage
deriving DecidableEq, Repr

/-- Whether an option is a switch: `-h`, or one with `action="store_true"`, given by their destinations (as in setup_cosipy.py:51-58). -/
def isSwitch (flags : List String) (o : Opt) : Bool := o.kind == .help || flags.contains o.dest

/-- Actions: an option with its value, a switch without (argparse.py:2033-2090). -/
abbrev Acts := List (Opt × Option Word)

/-- The letters behind a single dash and a first option, argparse.py:2003-2032: a switch is followed by further options, an option with a value takes the
rest. The second part is an option that has no value yet. `none`: an unknown letter. -/
def letters (os : List Opt) (flags : List String) : Word → Opt → Option (Acts × Option Opt)
  | [], o => if isSwitch flags o then none else some ([(o, some [])], none)
  | c :: r, o =>
    if isSwitch flags o then
      match named os ['-', c] with
      | none => none
      | some o' => if r = [] then some ([(o, none)], some o') else (letters os flags r o').map fun p => ((o, none) :: p.1, p.2)
    else some ([(o, some (c :: r))], none)

/-- What one argument that names an option stands for, argparse.py:1991-2032. A value attached to the long name of a switch is an error. -/
def expand (os : List Opt) (flags : List String) (w : Word) (o : Opt) : Option Word → Option (Acts × Option Opt)
  | none => some ([], some o)
  | some e =>
    if (w.drop 1).head? = some '-' then (if isSwitch flags o then none else some ([(o, some e)], none))
    else letters os flags e o

/-- `take_action`, argparse.py:2044-2059: help ends the program, a value must be convertible. `conv` says which values are. -/
def perform (conv : Opt → Word → Bool) : Acts → Except Stop Unit
  | [] => .ok ()
  | (o, v) :: r =>
    if o.kind = .help then .error .help
    else if v.all (conv o) then perform conv r
    else .error .usage

/-- The loop over the arguments, argparse.py:1986-2134. The second argument holds what waits for a value. The result: actions, and arguments left over. -/
def consumeS (conv : Opt → Word → Bool) (os : List Opt) (flags : List String) :
    Option (Acts × Opt) → List (Word × Slot) → Except Stop (Acts × List Word)
  | none, [] => .ok ([], [])
  | some _, [] => .error .usage
  | some (acts, p), (v, .word) :: r => do
    perform conv (acts ++ [(p, some v)])
    let (a, x) ← consumeS conv os flags none r
    pure (acts ++ [(p, some v)] ++ a, x)
  | some _, _ :: _ => .error .usage
  | none, (w, .option o att) :: r =>
    match expand os flags w o att with
    | none => .error .usage
    | some (acts, none) => do
      perform conv acts
      let (a, x) ← consumeS conv os flags none r
      pure (acts ++ a, x)
    | some (acts, some l) =>
      if isSwitch flags l then do
        perform conv (acts ++ [(l, none)])
        let (a, x) ← consumeS conv os flags none r
        pure (acts ++ [(l, none)] ++ a, x)
      else consumeS conv os flags (some (acts, l)) r
  | none, (w, _) :: r => do
    let (a, x) ← consumeS conv os flags none r
    pure (a, w :: x)

/-- `parser.parse_args()`, argparse.py:1918-2157: required options must be given and nothing may be left over. -/
def parseS (conv : Opt → Word → Bool) (os : List Opt) (flags : List String) (argv : List Word) : Except Stop Acts :=
  match classifyAll os argv with
  | none => .error .usage
  | some slots => do
    let (a, x) ← consumeS conv os flags none slots
    if (os.any fun o => o.required && !(a.any fun p => p.1 == o)) || !x.isEmpty then .error .usage else pure a

/-- `arguments.<dest>` of an option with a value: the last one given (as in setup_cosipy.py:143). -/
def valueS (a : Acts) (dest : String) : Option Word := ((a.reverse.find? fun p => p.1.dest == dest).bind Prod.snd)

/-- `arguments.<dest>` of a switch (as in setup_cosipy.py:162). -/
def switched (a : Acts) (dest : String) : Bool := a.any fun p => p.1.dest == dest

/-! ## cosipy-setup -/

/-- `get_user_arguments`, setup_cosipy.py:29-72. -/
def setupOpts : List Opt :=
  [helpOpt, ⟨["-y".toList, "--yes".toList], "overwrite", .store, false⟩, ⟨["-o".toList, "--output".toList], "output_path", .store, false⟩]

/-- Switches of cosipy-setup, setup_cosipy.py:51-58. -/
def setupFlags : List String := ["overwrite"]

/-- `main` of cosipy-setup from its command line, setup_cosipy.py:139-163. -/
def setupMain (norm : String → String) (depth : Nat) (sample cwd : String) (argv : List Word) (fs : Setup.Files) (answers : List String) :
    Except Stop (Setup.State × M Unit) := do
  let a ← parseS (fun _ _ => true) setupOpts setupFlags argv
  pure (Setup.main norm depth sample cwd ((valueS a "output_path").map String.ofList) (switched a "overwrite") fs answers)

/-! ## cosipy-plot-field -/

/-- `parse_arguments`, plot_cosipy_fields.py:403-461. -/
def fieldOpts : List Opt :=
  [helpOpt, ⟨["-i".toList, "--input".toList], "file", .store, true⟩, ⟨["-d".toList, "--date".toList], "pdate", .store, true⟩,
   ⟨["-m".toList, "--mean".toList], "mean", .store, false⟩, ⟨["-s".toList, "--save".toList], "save", .store, false⟩,
   ⟨["-v".toList, "--var".toList], "variable", .store, false⟩, ⟨["-t".toList, "--type".toList], "plot_type", .number, false⟩]

/-- Switches of cosipy-plot-field, plot_cosipy_fields.py:427-440. -/
def fieldFlags : List String := ["mean", "save"]

/-- `type=int, choices=[1, 2, None]`, plot_cosipy_fields.py:450-459; `toInt` is Python's `int`, `none` for a ValueError. -/
def isType (toInt : Word → Option Int) (o : Opt) (v : Word) : Bool :=
  match o.kind with
  | .number => toInt v == some 1 || toInt v == some 2
  | _ => true

/-- The path of the file and the arguments of the plot, plot_cosipy_fields.py:382-463, 466-497; `moment` is what pandas makes of the date. -/
def fieldArgs (toInt : Word → Option Int) (moment : Word → Maps.When) (argv : List Word) : Except Stop (Word × Maps.PlotArgs) := do
  let a ← parseS (isType toInt) fieldOpts fieldFlags argv
  let date := (valueS a "pdate").getD []
  pure ((valueS a "file").getD [], ⟨date, moment date, switched a "mean", switched a "save", (valueS a "variable").map String.ofList,
    (((valueS a "plot_type").bind toInt).getD 1).toNat⟩)

/-! ## cosipy-plot-vtk -/

/-- `parse_arguments`, plot_cosipy_fields_vtk.py:497-545. -/
def vtkOpts : List Opt :=
  [helpOpt, ⟨["-i".toList, "--input".toList], "input_file", .store, true⟩, ⟨["-n".toList, "--name".toList], "name", .store, false⟩,
   ⟨["-t".toList, "--time".toList], "timestamp", .store, true⟩, ⟨["-m".toList, "--mean".toList], "mean", .store, false⟩,
   ⟨["-g".toList, "--gltf".toList], "gltf", .store, false⟩]

/-- Switches of cosipy-plot-vtk, plot_cosipy_fields_vtk.py:530-543. -/
def vtkFlags : List String := ["mean", "gltf"]

/-- What `main` of cosipy-plot-vtk passes on, plot_cosipy_fields_vtk.py:12-23: file, variable, time, mean, glTF. -/
def vtkArgs (argv : List Word) : Except Stop (Word × Option Word × Word × Bool × Bool) := do
  let a ← parseS (fun _ _ => true) vtkOpts vtkFlags argv
  pure ((valueS a "input_file").getD [], valueS a "name", (valueS a "timestamp").getD [], switched a "mean", switched a "gltf")

end Cosipy.Cli
