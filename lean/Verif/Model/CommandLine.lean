import Verif.Model.Num

/-!
Model of the command lines of the programs: cosipy/config.py:17-149, cosipy/constants.py:19-21, cosipy/utilities/config_utils.py:46-92,
cosipy/utilities/aws2cosipy/aws2cosipy.py:914-1050, cosipy/utilities/wrf2cosipy/wrf2cosipy.py:176-242,
cosipy/utilities/createStatic/create_static_file.py:58-92 and the entry points in pyproject.toml:88-102.

The programs use the module `argparse` of the standard library. Its part for parsers with options only (no positional arguments, no subparsers) is
modelled after CPython 3.11, argparse.py:1918-2340, and trusted to be right. Simplifications: an argument is a list of characters; a digit is an ASCII
digit; `-h` with further letters attached asks for help (in argparse a malformed remainder can be a usage error instead); the texts printed are not
modelled, only whose they are; converting a value to a path or a string always succeeds.
-/

set_option autoImplicit false

namespace Cosipy.Cli

/-- One string of `sys.argv[1:]` (as parsed in cosipy/config.py:104). -/
abbrev Word := List Char

/-- What an option does with its value: `store` (types `str` and `pathlib.Path`), `number` (type `float`, aws2cosipy.py:970-999), the switch `-h` that
argparse adds to every parser (cosipy/config.py:47). -/
inductive Kind where
  | store | number | help
deriving DecidableEq, Repr

/-- `parser.add_argument(names…, dest=…, required=…)`, as in cosipy/config.py:51-80. -/
structure Opt where
  names : List Word
  dest : String
  kind : Kind := .store
  required : Bool := false
deriving DecidableEq, Repr

/-- A program or part of a program that prints its own help and usage: `prog=` in cosipy/config.py:47 and its replacements in aws2cosipy.py:924,
wrf2cosipy.py:186, create_static_file.py:68. -/
inductive Speaker where
  | cosipy | aws2cosipy | wrf2cosipy | createStatic
deriving DecidableEq, Repr

/-- How a program can end before it starts its work: help was printed (exit status 0), the command line was rejected (status 2, argparse), an exception
(`NotADirectoryError`, cosipy/config.py:37-38; a configuration file that cannot be read, config.py:166-167). -/
inductive Exit where
  | help (who : Speaker)
  | usage (who : Speaker)
  | notADirectory
  | unreadable (path : Word)
deriving DecidableEq, Repr

/-- What an argument is taken for before any value is assigned (argparse.py:1936-1959). -/
inductive Slot where
  | word
  | dashes
  | unknown
  | option (o : Opt) (attached : Option Word)
deriving DecidableEq, Repr

/-- `_negative_number_matcher`: `^-\d+$|^-\d*\.\d+$` (used in argparse.py:2288). -/
def isNegNumber : Word → Bool
  | '-' :: r => (!r.isEmpty && r.all Char.isDigit) ||
      (match r.dropWhile Char.isDigit with
       | '.' :: d => !d.isEmpty && d.all Char.isDigit
       | _ => false)
  | _ => false

/-- Part before the first `=` (argparse.py:2262, 2308). -/
def beforeEq (w : Word) : Word := w.takeWhile (· ≠ '=')

/-- Part after the first `=`, if there is one (argparse.py:2262, 2308). -/
def afterEq (w : Word) : Option Word :=
  match w.dropWhile (· ≠ '=') with
  | [] => none
  | _ :: r => some r

/-- All names of all options, each with its option: `_option_string_actions` (argparse.py:2311, 2325). -/
def allNames (os : List Opt) : List (Word × Opt) := os.flatMap fun o => o.names.map fun n => (n, o)

/-- The option that has exactly this name (argparse.py:2253-2254). -/
def named (os : List Opt) (w : Word) : Option Opt := ((allNames os).find? fun p => p.1 == w).map Prod.snd

/-- `_get_option_tuples`, argparse.py:2300-2340. -/
def candidates (os : List Opt) (w : Word) : List (Opt × Option Word) :=
  match w with
  | '-' :: '-' :: _ => ((allNames os).filter fun p => (beforeEq w).isPrefixOf p.1).map fun p => (p.2, afterEq w)
  | _ => (allNames os).filterMap fun p =>
      if p.1 = w.take 2 then some (p.2, some (w.drop 2)) else if w.isPrefixOf p.1 then some (p.2, none) else none

/-- `_parse_optional`, argparse.py:2243-2298; `none` if the abbreviation is ambiguous. -/
def classify (os : List Opt) (w : Word) : Option Slot :=
  match w with
  | '-' :: r =>
    match named os w with
    | some o => some (.option o none)
    | none =>
      if r = [] then some .word
      else
        match afterEq w, named os (beforeEq w) with
        | some e, some o => some (.option o (some e))
        | _, _ =>
          match candidates os w with
          | _ :: _ :: _ => none
          | [(o, e)] => some (.option o e)
          | [] => if isNegNumber w then some .word else if ' ' ∈ w then some .word else some .unknown
  | _ => some .word

/-- All arguments; behind `--` everything is a word (argparse.py:1936-1959). -/
def classifyAll (os : List Opt) : List Word → Option (List (Word × Slot))
  | [] => some []
  | w :: ws =>
    if w = ['-', '-'] then some ((w, .dashes) :: ws.map fun v => (v, .word))
    else do
      let s ← classify os w
      let r ← classifyAll os ws
      pure ((w, s) :: r)

/-- Whether the string is one that `float` accepts is a parameter (aws2cosipy.py:970-999). -/
def converts (isFloat : Word → Bool) (o : Opt) (v : Word) : Bool :=
  match o.kind with
  | .number => isFloat v
  | _ => true

/-- Values assigned in order, and the arguments left over (`consume_optional` and the loop around it, argparse.py:1986-2134). Simplification: `-h` with
letters behind it shows the help; argparse stops with the usage if the first of them is a dash or an option whose value is missing. -/
def consume (who : Speaker) (isFloat : Word → Bool) : List (Word × Slot) → Except Exit (List (Opt × Word) × List Word)
  | [] => .ok ([], [])
  | (w, .option o (some e)) :: r =>
    if o.kind = .help then .error (if '-' :: 'h' :: e = w then .help who else .usage who)
    else if converts isFloat o e then do
      let (a, x) ← consume who isFloat r
      pure ((o, e) :: a, x)
    else .error (.usage who)
  | (_, .option o none) :: (v, .word) :: r =>
    if o.kind = .help then .error (.help who)
    else if converts isFloat o v then do
      let (a, x) ← consume who isFloat r
      pure ((o, v) :: a, x)
    else .error (.usage who)
  | (_, .option o none) :: _ => .error (if o.kind = .help then .help who else .usage who)
  | (w, .word) :: r => do
    let (a, x) ← consume who isFloat r
    pure (a, w :: x)
  | (w, .dashes) :: r => do
    let (a, x) ← consume who isFloat r
    pure (a, w :: x)
  | (w, .unknown) :: r => do
    let (a, x) ← consume who isFloat r
    pure (a, w :: x)

/-- `parser.parse_known_args()`, argparse.py:1918-2157. -/
def parseKnown (who : Speaker) (isFloat : Word → Bool) (os : List Opt) (argv : List Word) : Except Exit (List (Opt × Word) × List Word) :=
  match classifyAll os argv with
  | none => .error (.usage who)
  | some slots => do
    let (a, x) ← consume who isFloat slots
    if os.any fun o => o.required && !(a.any fun p => p.1 == o) then .error (.usage who) else pure (a, x)

/-- `parser.parse_args()`: nothing may be left over. -/
def parseArgs (who : Speaker) (isFloat : Word → Bool) (os : List Opt) (argv : List Word) : Except Exit (List (Opt × Word)) := do
  let (a, x) ← parseKnown who isFloat os argv
  if x.isEmpty then pure a else .error (.usage who)

/-- `arguments.<dest>`: the last value assigned (as in cosipy/config.py:191). -/
def value (a : List (Opt × Word)) (dest : String) : Option Word := ((a.reverse.find? fun p => p.1.dest == dest).map Prod.snd)

/-- `-h, --help` is part of every parser (cosipy/config.py:47). -/
def helpOpt : Opt := ⟨["-h".toList, "--help".toList], "help", .help, false⟩

/-- `set_parser`, cosipy/config.py:43-83. -/
def coreOpts : List Opt :=
  [helpOpt, ⟨["-c".toList, "--config".toList], "config_path", .store, false⟩, ⟨["-x".toList, "--constants".toList], "constants_path", .store, false⟩,
   ⟨["-s".toList, "--slurm".toList], "slurm_path", .store, false⟩]

/-- `UtilitiesConfig.set_arg_parser`, config_utils.py:70-85. -/
def utilOpts : List Opt := [helpOpt, ⟨["-u".toList, "--utilities".toList], "utilities_path", .store, false⟩]

/-- `get_user_arguments` of aws2cosipy.py:914-1004. -/
def awsOpts : List Opt := utilOpts ++
  [⟨["-i".toList, "--input".toList], "csv_file", .store, true⟩, ⟨["-o".toList, "--output".toList], "cosipy_file", .store, true⟩,
   ⟨["-s".toList, "--static_file".toList], "static_file", .store, false⟩, ⟨["-b".toList, "--start_date".toList], "start_date", .store, false⟩,
   ⟨["-e".toList, "--end_date".toList], "end_date", .store, false⟩, ⟨["--xl".toList], "xl", .number, false⟩, ⟨["--xr".toList], "xr", .number, false⟩,
   ⟨["--yl".toList], "yl", .number, false⟩, ⟨["--yu".toList], "yu", .number, false⟩]

/-- `get_user_arguments` of wrf2cosipy.py:176-217. -/
def wrfOpts : List Opt := utilOpts ++
  [⟨["-i".toList, "--input".toList], "wrf_file", .store, true⟩, ⟨["-o".toList, "--output".toList], "cosipy_file", .store, true⟩,
   ⟨["-b".toList, "--start_date".toList], "start_date", .store, false⟩, ⟨["-e".toList, "--end_date".toList], "end_date", .store, false⟩]

/-- `get_user_arguments` of create_static_file.py:58-72: no options of its own. -/
def staticOpts : List Opt := utilOpts

/-- What a program finds when it is started: `COSIPY_DIR`, the working directory, which paths are directories, which configuration files can be read
and the command line (cosipy/config.py:35, 54, 104, 166). -/
structure World where
  env : Option Word
  cwd : Word
  isDir : Word → Bool
  readable : Word → Bool
  isFloat : Word → Bool
  argv : List Word

/-- `cosipy_path / name` (cosipy/config.py:54). Simplification: no normalisation of the path. -/
def join (dir name : Word) : Word := dir ++ '/' :: name

/-- The three paths of `get_user_arguments`, cosipy/config.py:86-112. -/
structure CorePaths where
  config : Word
  constants : Word
  slurm : Word
deriving DecidableEq, Repr

/-- `get_cosipy_path_from_env`, cosipy/config.py:17-40. -/
def cosipyDir (w : World) : Except Exit Word :=
  let d := w.env.getD w.cwd
  if w.isDir d then pure d else .error .notADirectory

/-- `get_user_arguments`, cosipy/config.py:86-112: unknown arguments are dropped. -/
def corePaths (w : World) : Except Exit CorePaths := do
  let d ← cosipyDir w
  let (a, _) ← parseKnown .cosipy w.isFloat coreOpts w.argv
  pure ⟨(value a "config_path").getD (join d "config.toml".toList), (value a "constants_path").getD (join d "constants.toml".toList),
    (value a "slurm_path").getD (join d "slurm_config.toml".toList)⟩

/-- `open(file_path)` and `tomllib.load`, cosipy/config.py:156-168. What is in the file is the subject of Config.lean. -/
def openToml (w : World) (p : Word) : Except Exit Unit := if w.readable p then pure () else .error (.unreadable p)

/-- Importing cosipy.config runs `main()`, cosipy/config.py:189-191, 273-281. Simplification: Slurm is not used, so the Slurm file is not read. -/
def importConfig (w : World) : Except Exit CorePaths := do
  let p ← corePaths w
  openToml w p.config
  pure p

/-- Importing cosipy.constants imports cosipy.config and runs `main()`, cosipy/constants.py:3, 19-21, 49-56. -/
def importConstants (w : World) : Except Exit CorePaths := do
  let p ← importConfig w
  openToml w p.constants
  pure p

/-- `run-cosipy`: COSIPY.py:43-51 and `main()`; the paths used in the simulation. -/
def runCosipy (w : World) : Except Exit CorePaths := importConstants w

/-- What a worker of `LocalCluster` finds when it imports `cosipy_core` (COSIPY.py:95-97, cosipy_core.py:4-5): it is spawned with the command line, the
environment and the working directory of the program (CPython 3.11, multiprocessing/spawn.py). Dask itself is not in the sandbox; this is from its
documentation. -/
def localWorker (w : World) : World := w

/-- What a worker of `SLURMCluster` finds (COSIPY.py:78-93): the batch job starts Dask's own worker program with the command line `argv`, in the same
directory and environment. Dask itself is not in the sandbox; this is from its documentation. -/
def slurmWorker (argv : List Word) (w : World) : World := { w with argv := argv }

/-- `cosipy-help`: `get_help` of cosipy/config.py:115-119 is called after the module was imported. The `.ok` result is the help text. -/
def cosipyHelp (w : World) : Except Exit Unit := do
  let _ ← importConfig w
  let _ ← cosipyDir w
  pure ()

/-- `load_config`, aws2cosipy.py:1007-1021, wrf2cosipy.py:220-234, create_static_file.py:75-89. -/
def loadConfig (w : World) (who : Speaker) (os : List Opt) : Except Exit (List (Opt × Word)) := do
  let a ← parseArgs who w.isFloat os w.argv
  openToml w ((value a "utilities_path").getD "utilities_config.toml".toList)
  pure a

/-- `cosipy-aws2cosipy`: the module imports neither cosipy.config nor cosipy.constants, aws2cosipy.py:39-49, 1024-1027. -/
def aws2cosipy (w : World) : Except Exit (List (Opt × Word)) := loadConfig w .aws2cosipy awsOpts

/-- `cosipy-create-static`: create_static_file.py:19-27, 92-93. -/
def createStatic (w : World) : Except Exit (List (Opt × Word)) := loadConfig w .createStatic staticOpts

/-- `cosipy-wrf2cosipy`: wrf2cosipy.py:36-37 imports cosipy.constants, which reads the command line first; then `main()`, wrf2cosipy.py:237-242. The
paths are those of the constants used. -/
def wrf2cosipy (w : World) : Except Exit (CorePaths × List (Opt × Word)) := do
  let p ← importConstants w
  let a ← loadConfig w .wrf2cosipy wrfOpts
  pure (p, a)

/-- The commands that are installed: pyproject.toml:88-102. -/
def entryPoints : List String :=
  ["run-cosipy", "cosipy-run", "cosipy-help", "cosipy-shortcuts", "setup-cosipy", "cosipy-setup", "cosipy-aws2cosipy", "cosipy-create-static",
   "cosipy-wrf2cosipy", "cosipy-plot-field", "cosipy-plot-profile", "cosipy-plot-vtk"]

end Cosipy.Cli
