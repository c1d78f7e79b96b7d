import Verif.Model.Num

/-!
# Creating the static file: `main` of cosipy/utilities/createStatic/create_static_file.py

What the program does to the files of a directory tree. The contents of files and the external tools (gdal, richdem, the
reading and combining of arrays) are parameters. `os.system` returns the exit status of the shell and the program ignores
it: a tool that fails leaves its target as it was. Simplifications: paths contain no blanks or other characters special to
the shell, a failing tool does not leave a partial file behind, directories exist, nobody else works on the files.
-/

set_option autoImplicit false

namespace Cosipy.StaticFile

/-- A file system: the content of every path that names a file (the files read and written in
cosipy/utilities/createStatic/create_static_file.py:95-190). -/
abbrev Files (C : Type) := String → Option C

/-- Settings of the program, cosipy/utilities/createStatic/create_static_file.py:95-104. `static_folder` ends with
a slash (it is put in front of the names as it is). -/
structure Settings where
  folder : String
  demName : String
  shapeName : String
  outputName : String
  tile : Bool
  aggregate : Bool

namespace Settings

/-- The DEM to read, create_static_file.py:100. -/
def dem (s : Settings) : String := s.folder ++ s.demName
/-- The outline of the glacier, create_static_file.py:102. -/
def shape (s : Settings) : String := s.folder ++ s.shapeName
/-- The static file to write, create_static_file.py:104. -/
def output (s : Settings) : String := s.folder ++ s.outputName
/-- Intermediate file, create_static_file.py:116. -/
def temp (s : Settings) : String := s.folder ++ "DEM_temp.tif"
/-- Intermediate file, create_static_file.py:117. -/
def temp2 (s : Settings) : String := s.folder ++ "DEM_temp2.tif"
/-- Intermediate file, create_static_file.py:118. -/
def demNc (s : Settings) : String := s.folder ++ "dem.nc"
/-- Intermediate file, create_static_file.py:120. -/
def maskNc (s : Settings) : String := s.folder ++ "mask.nc"
/-- Intermediate file, create_static_file.py:121. -/
def slopeNc (s : Settings) : String := s.folder ++ "slope.nc"

end Settings

/-- The external tools on contents; `none`: the tool fails. `gdalwarp` is given an existing target as well (it writes into
it): create_static_file.py:124-128 (`window`), 131-136 (`average`), 139 (`netcdf`), 142 (`slope`), 145 (`aspect`, raises),
148-151 (`cut`), 154-180 (`combine`: opening, masking and inserting the four variables, raises), 189 (`noNan`). -/
structure Tools (C A : Type) where
  window : C → Option C
  average : C → Option C → Option C
  netcdf : C → Option C
  slope : C → Option C
  aspect : C → Option A
  cut : C → C → Option C → Option C
  combine : C → C → C → A → M C
  noNan : C → Bool

/-- A command that writes `out`, run by `os.system`: failures go unnoticed (create_static_file.py:124-151). -/
def produce {C : Type} (fs : Files C) (out : String) (r : Option C) : Files C := fun p =>
  match r with
  | some c => if p = out then some c else fs p
  | none => fs p

/-- `rm` of several paths, missing ones are passed over (create_static_file.py:182-185). -/
def remove {C : Type} (fs : Files C) (ps : List String) : Files C := fun p => if p ∈ ps then none else fs p

section
variable {C A : Type}

/-- The DEM the later commands read, create_static_file.py:124-136: after `tile` the cut-out, after `aggregate` the
averaged one. -/
def tifPath (s : Settings) : String :=
  if s.aggregate then s.temp2 else if s.tile then s.temp else s.dem

/-- The commands up to the slope, create_static_file.py:124-142. -/
def gdalSteps (t : Tools C A) (s : Settings) (fs : Files C) : Files C :=
  let f1 := if s.tile then produce fs s.temp ((fs s.dem).bind t.window) else fs
  let tif1 := if s.tile then s.temp else s.dem
  let f2 := if s.aggregate then produce f1 s.temp2 ((f1 tif1).bind fun c => t.average c (f1 s.temp2)) else f1
  let f3 := produce f2 s.demNc ((f2 (tifPath s)).bind t.netcdf)
  produce f3 s.slopeNc ((f3 s.demNc).bind t.slope)

/-- `main`, create_static_file.py:92-190: the files afterwards and the outcome. What `LoadGDAL` raises for an unreadable file is
`runtime` here, whatever its type. -/
def main (t : Tools C A) (s : Settings) (fs : Files C) : Files C × M Unit :=
  let f4 := gdalSteps t s fs
  match (f4 (tifPath s)).bind t.aspect with
  | none => (f4, .error .runtime)
  | some a =>
    let f5 := produce f4 s.maskNc ((f4 s.shape).bind fun sh => (f4 (tifPath s)).bind fun c => t.cut sh c (f4 s.maskNc))
    match f5 s.demNc, f5 s.maskNc, f5 s.slopeNc with
    | some d, some m, some sl =>
      match t.combine d m sl a with
      | .error e => (f5, .error e)
      | .ok ds =>
        let f6 := remove f5 [s.demNc, s.maskNc, s.slopeNc, s.temp, s.temp2]
        if t.noNan ds then (produce f6 s.output (some ds), .ok ()) else (f6, .error .value)
    | _, _, _ => (f5, .error .file)

end
end Cosipy.StaticFile
