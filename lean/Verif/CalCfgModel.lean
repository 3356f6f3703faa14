import Mathlib.Data.Int.Basic
import Mathlib.Data.List.Infix
import Verif.CfgModel
import Verif.TemplateModel

/-!
# The configuration file of a calibration

`read_cfg_file` and `set_info` of the class `calibrator` in topoflow/utils/calibrate.py.  The attributes of the object are
a list of names and values, the one set last first.  A line is given as `readline()` returns it.
-/

set_option autoImplicit false

namespace CalCfg

open Cfg (Str split strip)

/-- A value of an attribute (calibrate.py:113-123): whole number, number, truth value, None or text.  `F` stands for the
numbers that Python's `float` makes. -/
inductive Val (F : Type)
  | int (n : ℤ)
  | flt (x : F)
  | bool (b : Bool)
  | none
  | str (s : Str)
deriving DecidableEq

/-- The number written by digits; used by `asInt`. -/
def asNat (s : Str) : Option ℕ :=
  if s ≠ [] ∧ s.all Char.isDigit = true then some (s.foldl (fun a c => 10 * a + (c.toNat - 48)) 0) else none

/-- `int(value)` (calibrate.py:114), simplified to an optional sign and ASCII digits: Python also takes underscores
between digits and digits of other scripts. -/
def asInt : Str → Option ℤ
  | '-' :: s => (asNat s).map (fun n : ℕ => -(n : ℤ))
  | '+' :: s => (asNat s).map (fun n : ℕ => (n : ℤ))
  | s => (asNat s).map (fun n : ℕ => (n : ℤ))

/-- Conversion of the text of a value (calibrate.py:113-123).  `toFloat` is `float(value)`, `none` if it fails. -/
def conv {F : Type} (toFloat : Str → Option F) (v : Str) : Val F :=
  match asInt v with
  | some n => .int n
  | Option.none =>
    match toFloat v with
    | some x => .flt x
    | Option.none =>
      if v = "True".toList then .bool true
      else if v = "False".toList then .bool false
      else if v = "None".toList then .none
      else .str v

/-- A name that can follow `self.` in the assignment (calibrate.py:125), simplified to letters, digits and underscores not
beginning with a digit.  Keywords are not excluded. -/
def ident : Str → Bool
  | [] => false
  | c :: s => (c.isAlpha || c = '_') && s.all (fun d => d.isAlphanum || d = '_')

/-- The attributes, the one set last first. -/
abbrev Attrs (F : Type) := List (Str × Val F)

/-- Value of an attribute. -/
def get {F : Type} : Attrs F → Str → Option (Val F)
  | [], _ => Option.none
  | (k', v) :: a, k => if k' = k then some v else get a k

/-- One line of the file (calibrate.py:106-109, 125). -/
def line {F : Type} (toFloat : Str → Option F) (l : Str) (a : Attrs F) : Except String (Attrs F) :=
  if l.head? ≠ some '#' ∧ '=' ∈ l then
    match split '=' l with
    | k :: v :: _ =>
      if ident (strip k) then .ok ((strip k, conv toFloat (strip v)) :: a) else .error "SyntaxError: invalid syntax"
    | _ => .error "IndexError: list index out of range"
  else .ok a

/-- The loop over the lines (calibrate.py:100-125). -/
def readLines {F : Type} (toFloat : Str → Option F) : List Str → Attrs F → Except String (Attrs F)
  | [], a => .ok a
  | l :: ls, a =>
    match line toFloat l a with
    | .error e => .error e
    | .ok a' => readLines toFloat ls a'

/-- An attribute used as a text. -/
def text {F : Type} (a : Attrs F) (k : Str) : Except String Str :=
  match get a k with
  | Option.none => .error "AttributeError: 'calibrator' object has no such attribute"
  | some (.str s) => .ok s
  | some _ => .error "TypeError"

/-- Replacement of a placeholder in the name of a directory (calibrate.py:130-139). -/
def expand {F : Type} (a : Attrs F) (k tag base : Str) : Except String (Attrs F) :=
  match text a k with
  | .error e => .error e
  | .ok s =>
    if tag <:+: s then
      match text a base with
      | .error e => .error e
      | .ok b => .ok ((k, .str (Template.replaceAll (tag ++ ['/']) b s)) :: a)
    else .ok a

/-- Path separator at the end (calibrate.py:144-153). -/
def slash {F : Type} (a : Attrs F) (k : Str) : Except String (Attrs F) :=
  match text a k with
  | .error e => .error e
  | .ok s =>
    match s.getLast? with
    | Option.none => .error "IndexError: string index out of range"
    | some c => .ok (if c ≠ '/' then (k, .str (s ++ ['/'])) :: a else a)

/-- The five directories with a placeholder each, in the order of the code (calibrate.py:130-139). -/
def tags : List (Str × Str × Str) :=
  [("basin_dir".toList, "[examples_dir]".toList, "examples_dir".toList),
   ("topo_dir".toList, "[examples_dir]".toList, "examples_dir".toList),
   ("obs_dir".toList, "[examples_dir]".toList, "examples_dir".toList),
   ("cfg_dir".toList, "[examples_dir]".toList, "examples_dir".toList),
   ("output_dir".toList, "[home_dir]".toList, "home_dir".toList)]

/-- All replacements (calibrate.py:130-139). -/
def expandAll {F : Type} : List (Str × Str × Str) → Attrs F → Except String (Attrs F)
  | [], a => .ok a
  | (k, tag, base) :: ts, a =>
    match expand a k tag base with
    | .error e => .error e
    | .ok a' => expandAll ts a'

/-- All separators (calibrate.py:144-153). -/
def slashAll {F : Type} : List Str → Attrs F → Except String (Attrs F)
  | [], a => .ok a
  | k :: ks, a =>
    match slash a k with
    | .error e => .error e
    | .ok a' => slashAll ks a'

/-- The directories that get a separator, in the order of the code (calibrate.py:144-153). -/
def dirs : List Str :=
  ["basin_dir".toList, "topo_dir".toList, "cfg_dir".toList, "output_dir".toList, "obs_dir".toList]

/-- `standardize_datetime_str` (time_utils.py:232-241). -/
def standard (s : Str) : Str := s.take 10 ++ ' ' :: s.drop (s.length - 8)

/-- The attributes built from others (calibrate.py:158-165, 174-176). -/
def derive {F : Type} (a : Attrs F) : Except String (Attrs F) :=
  match text a "output_dir".toList with
  | .error e => .error e
  | .ok out =>
    match text a "cfg_prefix".toList with
    | .error e => .error e
    | .ok pre =>
      match text a "obs_start_datetime".toList with
      | .error e => .error e
      | .ok dt =>
        match text a "obs_dir".toList with
        | .error e => .error e
        | .ok od =>
          match text a "obs_data_file".toList with
          | .error e => .error e
          | .ok f =>
            .ok (("obs_data_file".toList, .str (od ++ f)) :: ("obs_start_datetime".toList, .str (standard dt)) ::
              ("sim_data_file".toList, .str (out ++ pre ++ "_0D-Q.txt".toList)) :: ("sim_dir".toList, .str out) :: a)

/-- `set_info` of a new object (calibrate.py:80-177) with a configuration file of these lines; `none` if there is no such
file: then a message is printed and the first attribute that is used is missing. -/
def setInfo {F : Type} (toFloat : Str → Option F) (home examples : Str) (file : Option (List Str)) :
    Except String (Attrs F) :=
  match file with
  | Option.none => .error "AttributeError: 'calibrator' object has no attribute 'obs_dir'"
  | some ls =>
    match readLines toFloat ls [("examples_dir".toList, .str examples), ("home_dir".toList, .str home)] with
    | .error e => .error e
    | .ok a =>
      match expandAll tags a with
      | .error e => .error e
      | .ok a =>
        match slashAll dirs a with
        | .error e => .error e
        | .ok a => derive a

/-- `set_info` without a configuration file (calibrate.py:170-227); numbers that are not whole are given by `two` and
`one`. -/
def defaults {F : Type} (two one : F) (home examples : Str) : Attrs F :=
  let basin := examples ++ "Treynor_Iowa_30m/".toList
  let out := home ++ "TF_Output/Treynor/".toList
  let obs := basin ++ "__observations/".toList
  [("examples_dir".toList, .str examples), ("home_dir".toList, .str home), ("cost_fcn_name".toList, .str "Lp_norm".toList),
   ("p_for_Lp_norm".toList, .flt two), ("site_prefix".toList, .str "Treynor".toList),
   ("cfg_prefix".toList, .str "June_20_67".toList), ("basin_dir".toList, .str basin),
   ("topo_dir".toList, .str (basin ++ "__topo/".toList)),
   ("cfg_dir".toList, .str (basin ++ "__No_Infil_June_20_67_rain/".toList)), ("output_dir".toList, .str out),
   ("obs_time_format".toList, .str "hhmm".toList), ("obs_time_interval".toList, .str "irregular".toList),
   ("obs_time_units".toList, .str "minutes".toList), ("obs_header_lines".toList, .int 6), ("obs_time_column".toList, .int 0),
   ("obs_value_column".toList, .int 5), ("obs_interp_method".toList, .str "linear".toList), ("obs_dir".toList, .str obs),
   ("obs_data_file".toList, .str (obs ++ "June_20_1967_Observed_Discharge.txt".toList)),
   ("sim_time_format".toList, .str "timesince".toList), ("sim_time_interval".toList, .flt one),
   ("sim_time_units".toList, .str "minutes".toList), ("sim_header_lines".toList, .int 2), ("sim_time_column".toList, .int 0),
   ("sim_value_column".toList, .int 1), ("sim_dir".toList, .str out),
   ("sim_data_file".toList, .str (out ++ "June_20_67".toList ++ "_0D-Q.txt".toList))]

/-- The attributes that `read_time_series` reads (calibrate.py:301-313), in the order of the code. -/
def needed (observed : Bool) : List Str :=
  if observed then
    ["obs_data_file".toList, "obs_data_delim".toList, "obs_header_lines".toList, "obs_time_column".toList,
     "obs_value_column".toList]
  else
    ["sim_data_file".toList, "sim_data_delim".toList, "sim_header_lines".toList, "sim_time_column".toList,
     "sim_value_column".toList]

/-- The beginning of `read_time_series` (calibrate.py:301-313): the attributes, or an error if one is missing. -/
def settings {F : Type} (a : Attrs F) : List Str → Except String (List (Val F))
  | [] => .ok []
  | k :: ks =>
    match get a k with
    | Option.none => .error "AttributeError: 'calibrator' object has no such attribute"
    | some v =>
      match settings a ks with
      | .error e => .error e
      | .ok vs => .ok (v :: vs)

end CalCfg
