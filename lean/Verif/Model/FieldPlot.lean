import Verif.Model.Maps
import Verif.Model.Result
import Verif.Model.CommandLine

/-!
# The program that draws maps, and the installed commands

Model of cosipy/postprocessing/field_plots/plot_cosipy_fields.py:29-64, 153-379, 466-497 from the parsed command line to the fields handed to
matplotlib, and of the commands in pyproject.toml:88-102. Reading the command line, colours, contour lines of the topography and the drawing itself
are not modelled. A missing number (NaN) is `none`; a time is given in seconds since some midnight.
-/

set_option autoImplicit false

namespace Cosipy.Maps

section
variable {α : Type}

/-- What is drawn on one axis: title, label of the colour bar and the field by row and column (plot_cosipy_fields.py:195-207). -/
structure Panel (α : Type) where
  title : String
  unit : String
  field : Nat → Nat → Option α

/-- The argument `--date`: a full timestamp, or a date given by its midnight (plot_cosipy_fields.py:417-425). -/
inductive When where
  | time (t : Int)
  | date (midnight : Int)
deriving DecidableEq

/-- The instant pandas makes of the argument (as for `method="nearest"`, plot_cosipy_fields.py:61). -/
def When.instant : When → Int
  | .time t => t
  | .date d => d

/-- Whether a record is selected by `sel(time=timestamp)`, plot_cosipy_fields.py:50: that of the time, or all of the day. -/
def When.selects (w : When) (t : Int) : Bool :=
  match w with
  | .time q => t == q
  | .date d => dayOf t == d

/-- The record at a time, plot_cosipy_fields.py:49-57: KeyError if there is none. Simplification: a selection of no record is a KeyError here; for a
date without records xarray gives an empty selection, which cannot be drawn either. -/
def recordAt (times : List Int) (w : When) : M Nat :=
  match (List.range times.length).filter fun k => (times[k]?).any w.selects with
  | [k] => .ok k
  | _ => .error .key

/-- The series of a cell with its times (plot_cosipy_fields.py:57-62). -/
def cellSeries (times : List Int) (a : Arr (Option α)) (y x : Nat) : List (Int × Option α) :=
  (List.range times.length).map fun k => ((times[k]?).getD 0, a.val k y x 0)

/-- `str.lower`, for ASCII letters (plot_cosipy_fields.py:185). -/
def lower (s : String) : List Char := s.toList.map Char.toLower

variable [Add α] [Div α] [Zero α] [NatCast α]

/-- `get_selection`, plot_cosipy_fields.py:29-64: KeyError for a variable without time. -/
def selection (times : List Int) (a : Arr (Option α)) (w : When) (mean : Bool) : M (Nat → Nat → Option α) :=
  if a.time.isNone then .error .key
  else if mean then
    if times.isEmpty then .error .key
    else .ok fun y x => ((dailyMean (cellSeries times a y x) w.instant).toOption).join
  else do
    let k ← recordAt times w
    return fun y x => a.val k y x 0

/-- The field drawn by `plot_axes`, plot_cosipy_fields.py:185-189: the elevation as it is, everything else at the time. -/
def axesField (times : List Int) (v : Var (Option α)) (w : When) (mean : Bool) : M (Nat → Nat → Option α) :=
  if lower v.label.longName = "elevation".toList then
    if v.data.time.isSome then .error .value else .ok fun y x => v.data.val 0 y x 0
  else selection times v.data w mean

/-- `plot_axes`, plot_cosipy_fields.py:153-209. A field that is not two-dimensional cannot be drawn (ValueError of xarray). `title` is `str.title`.
Simplification: the variable has a label; the type of plot is one of the two. -/
def plotAxes (title : String → String) (times : List Int) (v : Var (Option α)) (w : When) (mean : Bool) : M (Panel α) := do
  let field ← axesField times v w mean
  if v.data.layer.isSome then .error .value
  else return ⟨title v.label.longName, v.label.units, field⟩

/-- `data[key]` (KeyError), `data.HGT` (AttributeError) and `plot_axes`, as in plot_cosipy_fields.py:264-285. -/
def panel (title : String → String) (times : List Int) (ds : Store (Var (Option α))) (w : When) (mean : Bool) (key : String) : M (Panel α) :=
  match ds key with
  | none => .error .key
  | some v => do
    let _ ← ds.get "HGT"
    plotAxes title times v w mean

/-- `plot_data`, plot_cosipy_fields.py:241-287, with `create_subplots_for_variables` (212-238): the panels by rows. -/
def plotData (title : String → String) (times : List Int) (ds : Store (Var (Option α))) (w : When) (var : Option String) (mean : Bool)
    (rows : List (List String)) : M (List (List (Panel α))) :=
  match var with
  | none =>
    if rows.isEmpty then .error .value
    else rows.mapM fun row => row.mapM (panel title times ds w mean)
  | some n => do
    let p ← panel title times ds w mean n
    return [[p]]

/-- The parsed command line of `cosipy-plot-field`, plot_cosipy_fields.py:382-463. `date` is the text of `--date`. -/
structure PlotArgs where
  date : List Char
  moment : When
  mean : Bool
  save : Bool
  var : Option String
  plotType : Nat := 1

/-- `main`, `plotContour`, `plotMesh`: plot_cosipy_fields.py:290-379, 466-497. The panels, and the name of the file if one is written. -/
def plotField (title : String → String) (dims : List (String × Nat)) (times : List Int) (ds : Store (Var (Option α))) (a : PlotArgs) :
    M (List (List (Panel α)) × Option (List Char)) := do
  check2d dims
  let contour := a.plotType == 1
  let ps ← plotData title times ds a.moment a.var a.mean (if contour then contourRows else meshRows)
  let file := if a.save then some (imageName a.date (a.var.map String.toList) (if contour then "contour".toList else "mesh".toList)) else none
  return (ps, file)

end

/-! ## The installed commands -/

/-- Commands with the module and function they call, pyproject.toml:88-102. -/
def commandTable : List (String × String × String) :=
  [("run-cosipy", "COSIPY", "main"), ("cosipy-run", "COSIPY", "main"), ("cosipy-help", "cosipy.config", "get_help"),
   ("cosipy-shortcuts", "cosipy.config", "print_entry_points"),
   ("setup-cosipy", "cosipy.utilities.setup_cosipy.setup_cosipy", "main"), ("cosipy-setup", "cosipy.utilities.setup_cosipy.setup_cosipy", "main"),
   ("cosipy-aws2cosipy", "cosipy.utilities.aws2cosipy.aws2cosipy", "main"),
   ("cosipy-create-static", "cosipy.utilities.createStatic.create_static_file", "main"),
   ("cosipy-wrf2cosipy", "cosipy.utilities.wrf2cosipy.wrf2cosipy", "main"),
   ("cosipy-plot-field", "cosipy.postprocessing.field_plots.plot_cosipy_fields", "main"),
   ("cosipy-plot-profile", "cosipy.postprocessing.profile_plots.plot_profiles", "main"),
   ("cosipy-plot-vtk", "cosipy.postprocessing.vtk_plots.plot_cosipy_fields_vtk", "main")]

/-- The functions defined in a module, in the order of the files: COSIPY.py:49-437, cosipy/config.py:17-273, setup_cosipy.py:29-139,
aws2cosipy.py:55-1024, wrf2cosipy.py:43-237, create_static_file.py:30-92, plot_cosipy_fields.py:17-466, plot_profiles.py:16-232,
plot_cosipy_fields_vtk.py:12-480. Simplification: for plot_profiles.py the names it imports (lines 1-13) are listed too, for the others they are not needed. -/
def moduleNames : String → List String
  | "COSIPY" => ["main", "run_cosipy", "create_data_directory", "get_timestamp_label", "set_output_netcdf_path", "start_logging", "transform_coordinates",
      "compute_scale_and_offset", "close_everything", "print_notice", "check_for_nan", "get_time_required", "get_time_elapsed"]
  | "cosipy.config" => ["get_cosipy_path_from_env", "set_parser", "get_user_arguments", "get_help", "get_entry_points", "print_entry_points", "main"]
  | "cosipy.utilities.setup_cosipy.setup_cosipy" => ["get_user_arguments", "check_file_exists", "get_sample_directory", "copy_file_to_target",
      "get_user_confirmation", "main"]
  | "cosipy.utilities.aws2cosipy.aws2cosipy" => ["read_input_file", "create_1D_input", "create_2D_input", "get_user_arguments", "load_config", "main"]
  | "cosipy.utilities.createStatic.create_static_file" => ["check_folder_path", "check_for_nan", "insert_var", "get_user_arguments", "load_config", "main"]
  | "cosipy.utilities.wrf2cosipy.wrf2cosipy" => ["create_input", "add_variable_along_latlon", "add_variable_along_timelatlon", "check", "wrf_rh",
      "get_user_arguments", "load_config", "main"]
  | "cosipy.postprocessing.field_plots.plot_cosipy_fields" => ["check_2d", "get_selection", "set_contour_format", "set_gridlines", "save_image",
      "plot_topography", "plot_axes", "create_subplots_for_variables", "plot_data", "plotMesh", "plotContour", "parse_arguments", "main"]
  | "cosipy.postprocessing.profile_plots.plot_profiles" => ["matplotlib", "plt", "cm", "BoundaryNorm", "os", "np", "xr", "argparse", "griddata",
      "interpolate", "mdates", "pd", "plot_profile", "plot_profile_1D_timeseries", "plot_profile_1D", "find_nearest", "naive_fast"]
  | "cosipy.postprocessing.vtk_plots.plot_cosipy_fields_vtk" => ["main", "check_2d", "get_selection", "get_coords", "create_points", "createDEM_v1",
      "createDEM_v2", "add_scalar", "plotSurface", "parse_arguments"]
  | _ => []

/-- Whether a command can be started: the generated script does `from module import function` (pyproject.toml:88-102), ImportError if the module has no such name. -/
def startCommand (name : String) : M Unit :=
  match commandTable.lookup name with
  | none => .error .key
  | some (m, f) => if (moduleNames m).contains f then .ok () else .error .attribute

/-- Whether `print_entry_points` lists a command, cosipy/config.py:123-148 with the default `package_name="cosipy"`. -/
def isListed (name : List Char) : Bool :=
  "COSIPY".toList.isPrefixOf name || "cosipy".toList.isPrefixOf name || (List.range (name.length + 1)).any fun k => "cosipy".toList.isPrefixOf (name.drop k)

end Cosipy.Maps
