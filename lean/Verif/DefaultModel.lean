import Mathlib.Algebra.Order.Ring.Rat
import Verif.OptionModel

/-!
# Options that older CFG files do not have, II

`set_missing_cfg_options` of the meteorology, driver and snow components, `set_new_defaults` of the
infiltration component, and the steps of the start that use them (topoflow/components/met_base.py,
topoflow_driver.py, snow_degree_day.py, snow_base.py, glacier_base.py, infil_base.py).  The channels component is
in OptionModel.  The reading of CFG files is modelled in CfgModel; here the attributes after it are given.
-/

set_option autoImplicit false

namespace Defaults

open Opts (Val truthy)

/-- The attributes of a component.  Used in the model of met_base.py:856-920. -/
abbrev Attrs := String → Option Val

/-- `self.n = v`.  Used in the model of met_base.py:856-920. -/
def put (a : Attrs) (n : String) (v : Val) : Attrs := fun m => if m = n then some v else a m

/-- `if not(hasattr(self, n)): self.n = v`.  Used in the model of met_base.py:856-920. -/
def orElse (a : Attrs) (n : String) (v : Val) : Attrs := if a n = none then put a n v else a

/-- A sequence of such statements.  Used in the model of met_base.py:856-920. -/
def setMissing : List (String × Val) → Attrs → Attrs
  | [], a => a
  | (n, v) :: l, a => setMissing l (orElse a n v)

/-- A sequence of assignments.  Used in the model of infil_base.py:146-181. -/
def setAll : List (String × Val) → Attrs → Attrs
  | [], a => a
  | (n, v) :: l, a => setAll l (put a n v)

/-! ## Meteorology -/

/-- The statements of `set_missing_cfg_options`, met_base.py:856-920; `year` is `solar.Current_Year()`. -/
def metMissing (year : ℚ) : List (String × Val) :=
  [("PRECIP_ONLY", .bool false), ("P_factor", .num 1), ("T_rain_snow_type", .str "Scalar"),
    ("T_rain_snow", .num 1), ("SATTERLUND", .bool false), ("NGEN_CSV", .bool false),
    ("start_year", .num year), ("SAVE_QSW_GRIDS", .bool false), ("SAVE_QLW_GRIDS", .bool false),
    ("SAVE_TSURF_GRIDS", .bool false), ("SAVE_ALB_GRIDS", .bool false),
    ("SAVE_QSW_PIXELS", .bool false), ("SAVE_QLW_PIXELS", .bool false),
    ("SAVE_TSURF_PIXELS", .bool false), ("SAVE_ALB_PIXELS", .bool false)]

/-- The names to which `update_outfile_names` prepends the directory, met_base.py:2670-2684. -/
def metNames : List String :=
  ["ea_gs_file", "es_gs_file", "Qsw_gs_file", "Qlw_gs_file", "ema_gs_file", "tsurf_gs_file",
    "alb_gs_file", "ea_ts_file", "es_ts_file", "Qsw_ts_file", "Qlw_ts_file", "ema_ts_file",
    "tsurf_ts_file", "alb_ts_file"]

/-- `self.x = (self.out_directory + self.x)` for the listed names: AttributeError if one is missing, TypeError
if it is no text.  Used in the model of met_base.py:2662-2684. -/
def joinNames (dir : String) : List String → Attrs → Except String Attrs
  | [], a => .ok a
  | n :: l, a =>
    match a n with
    | none => .error "AttributeError"
    | some (.str s) => joinNames dir l (put a n (.str (dir ++ s)))
    | some _ => .error "TypeError"

/-- The start of the meteorology component as far as it depends on these options: `set_missing_cfg_options`
(met_base.py:643) and, unless only precipitation is wanted, `update_outfile_names` in `open_output_files`
(met_base.py:729-730, 2699).  The other steps of `initialize` are left out. -/
def metStart (year : ℚ) (dir : String) (cfg : Attrs) : Except String Attrs :=
  let a := setMissing (metMissing year) cfg
  match a "PRECIP_ONLY" with
  | none => .error "AttributeError"
  | some v => if truthy v then .ok a else joinNames dir metNames a

/-! ## Driver -/

/-- `set_missing_cfg_options`, topoflow_driver.py:393-423; `home` is the user's home directory. -/
def driverMissing (home : String) : List (String × Val) :=
  [("COMPUTE_STAT_GRIDS", .bool false), ("CREATE_INDICATORS", .bool false),
    ("CREATE_MEDIA_FILES", .bool false), ("media_directory", .str (home ++ "/media/"))]

/-- The call in `initialize`, topoflow_driver.py:448. -/
def driverStart (home : String) (cfg : Attrs) : Attrs := setMissing (driverMissing home) cfg

/-! ## Snow and glacier -/

/-- The reference temperature of the cold content.  `set_missing_cfg_options` of the degree-day component
(snow_degree_day.py:256-267); the other components do nothing there (snow_base.py:312-322,
glacier_base.py:327-337).  Then `initialize_cold_content` (snow_base.py:451-452, glacier_base.py:498-499). -/
def coldStart (degreeDay : Bool) (cfg : Attrs) : Except String Attrs :=
  let a := if degreeDay then orElse cfg "T0_cc" (.num 0) else cfg
  if a "T0_cc" = none then
    match a "T0" with
    | none => .error "AttributeError"
    | some v => .ok (put a "T0_cc" v)
  else .ok a

/-! ## Infiltration -/

/-- The assignments of `set_new_defaults`, infil_base.py:146-181. -/
def infilDefaults : List (String × Val) :=
  [("SINGLE_PROFILE", .bool true), ("CHECK_STABILITY", .bool false), ("SAVE_Q0_GRIDS", .bool false),
    ("SAVE_ZW_GRIDS", .bool false), ("SAVE_Q0_PIXELS", .bool false), ("SAVE_ZW_PIXELS", .bool false),
    ("SAVE_Q_CUBES", .bool false), ("SAVE_P_CUBES", .bool false), ("SAVE_K_CUBES", .bool false),
    ("SAVE_V_CUBES", .bool false), ("q_cs_file", .str ""), ("p_cs_file", .str ""),
    ("K_cs_file", .str ""), ("v_cs_file", .str ""), ("save_cube_dt", .num 60)]

/-- The assignments of `set_computed_input_vars` to options: infil_richards_1D.py:469-473,
infil_green_ampt.py:293-297, infil_smith_parlange.py:295-299, infil_beven.py:288-292. -/
def infilComputed (richards : Bool) : List (String × Val) :=
  if richards then
    [("RICHARDS", .bool true), ("G_file", .str ""), ("gam_file", .str ""), ("G_type", .str "Scalar"),
      ("gam_type", .str "Scalar")]
  else
    [("RICHARDS", .bool false), ("SAVE_Q0_GRIDS", .bool false), ("SAVE_ZW_GRIDS", .bool false),
      ("SAVE_Q0_PIXELS", .bool false), ("SAVE_ZW_PIXELS", .bool false)]

/-- The options of an enabled infiltration component when its output files are opened: `RICHARDS` and the
defaults are set first (infil_base.py:213-214, 229-230), then the CFG file is read over them
(infil_base.py:232), then `set_computed_input_vars` is called (infil_base.py:284).  That the save intervals are
raised to the time step there is in OutputModel and left out here. -/
def infilStart (richards : Bool) (cfg : Attrs) : Attrs :=
  let a := setAll infilDefaults (put (fun _ => none) "RICHARDS" (.bool richards))
  setAll (infilComputed richards) (fun n => match cfg n with
    | some v => some v
    | none => a n)

/-! ## The threshold between rain and snow -/

/-- `s.lower()` for the letters A to Z.  Used in the model of BMI_base.py:1788. -/
def lower (s : String) : String := String.ofList (s.toList.map Char.toLower)

/-- The two entries of the CFG file, the type and then the value, in `read_config_file`: a number is stored
(BMI_base.py:1817-1825); with a type other than Scalar a text is stored as the name of a file and the variable
itself becomes 0 (BMI_base.py:1788-1811, 1917-1923).  The names yes, no, true, ... for files are left out. -/
def readThreshold (ty : String) (value : Val) : Attrs :=
  let a : Attrs := put (fun _ => none) "T_rain_snow_type" (.str ty)
  if lower ty = "scalar" then
    put (put a "T_rain_snow_file" (.str "")) "T_rain_snow" value
  else
    let b := put a "T_rain_snow" (.num 0)
    match value with
    | .str f => put b "T_rain_snow_file" (.str f)
    | v => put b "T_rain_snow" v

/-- The threshold that the updates work with: no file is read for it (met_base.py:2321-2640 do not mention it).
A text cannot be compared.  Used in the model of met_base.py:1324, 1377. -/
def threshold (a : Attrs) : Except String ℚ :=
  match a "T_rain_snow" with
  | some (.num x) => .ok x
  | some (.bool b) => .ok (if b then 1 else 0)
  | some (.str _) => .error "TypeError"
  | none => .error "AttributeError"

/-- `P * (T_air > T_rain_snow)` and `P * (T_air <= T_rain_snow)` in one cell, met_base.py:1324, 1377. -/
def split (thr P T : ℚ) : ℚ × ℚ :=
  (P * (if T > thr then 1 else 0), P * (if T ≤ thr then 1 else 0))

/-- Rain and snow in one cell with the attributes read from the CFG file.  Used in the model of
met_base.py:643, 1324, 1377. -/
def rainSnow (year : ℚ) (cfg : Attrs) (P T : ℚ) : Except String (ℚ × ℚ) :=
  match threshold (setMissing (metMissing year) cfg) with
  | .error e => .error e
  | .ok t => .ok (split t P T)

end Defaults
