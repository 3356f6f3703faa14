import Verif.TimeUtilsModel
import Verif.CfgModel

/-!
# The period of a run

`get_duration`, `get_current_datetime` and `get_end_datetime` of topoflow/utils/time_utils.py, `read_time_info` of
topoflow/utils/BMI_base.py, and what the netCDF writers take from it.
-/

set_option autoImplicit false

namespace TimeInfo

open TimeUtils

/-- Date and time of one end of the period (time_utils.py:107-129). -/
def endPoint (date time : Text) : Except String DT :=
  match threeNumbers '-' date with
  | .error e => .error e
  | .ok (y, m, d) =>
    match threeNumbers ':' time with
    | .error e => .error e
    | .ok (h, mi, s) => mkDT y m d h mi s

/-- `get_duration` (time_utils.py:83-161).  Simplified: the order in which the two datetimes are built does not matter
here (an error in either is an error). -/
def getDuration (startDate startTime endDate endTime : Option Text) (units : Option String) : Except String ℚ :=
  match endPoint (startDate.getD "2014-01-01".toList) (startTime.getD "00:00:00".toList) with
  | .error e => .error e
  | .ok a =>
    match endPoint (endDate.getD "2015-01-01".toList) (endTime.getD "00:00:00".toList) with
    | .error e => .error e
    | .ok b =>
      let secs : ℚ := ((b.abs - a.abs : ℤ) : ℚ) / 1000000
      let u := units.getD "days"
      if u = "seconds" then .ok secs
      else if u = "minutes" then .ok (secs / 60)
      else if u = "hours" then .ok (secs / 3600)
      else if u = "days" then .ok (secs / 86400)
      else if u = "months" then .ok (monthDifference a b : ℤ)
      else if u = "years" then .ok (secs / 31536000)
      else .ok (secs / 3600)

/-- `get_current_datetime` (time_utils.py:187-203) and `get_end_datetime` (207-212), which do the same. -/
def getCurrentDatetime (start : Text) (time : ℚ) (units : String) : Except String DT :=
  match fromOneStr start with
  | .error e => .error e
  | .ok t0 => fromTimeSince t0 time units

/-- `get_time_dtype` (time_utils.py:54-72); `none` is a `KeyError`. -/
def timeDtype (units : String) : Option String :=
  if units = "seconds" then some "datetime64[s]"
  else if units = "minutes" then some "datetime64[m]"
  else if units = "hours" then some "datetime64[h]"
  else if units = "days" then some "datetime64[D]"
  else if units = "months" then some "datetime64[M]"
  else if units = "years" then some "datetime64[Y]"
  else none

/-- The attributes of the object `time_info` (BMI_base.py:1579-1664): the strings by name, and the number `duration`. -/
structure Info where
  text : Text → Option Text
  duration : Option ℚ

/-- The loop of `read_time_info` over the lines of the file (BMI_base.py:1622-1647): every entry sets an attribute of
its own, as a string.  SyntaxError for a name that is no name. -/
def readEntries (assignable : Text → Bool) (a : Text → Option Text) : List Text → Except String (Text → Option Text)
  | [] => .ok a
  | l :: ls =>
    match Cfg.parseLine l with
    | none => readEntries assignable a ls
    | some (name, value, _) =>
      if assignable name then readEntries assignable (fun k => if k = name then some value else a k) ls
      else .error "SyntaxError"

/-- Setting an attribute (BMI_base.py:1603-1608, 1660-1663). -/
def set (a : Text → Option Text) (name : String) (v : Text) : Text → Option Text :=
  fun k => if k = name.toList then some v else a k

/-- `read_time_info` (BMI_base.py:1552-1665); `file` is `none` if there is no such file, otherwise its lines. -/
def readTimeInfo (assignable : Text → Bool) (file : Option (List Text)) : Except String Info :=
  match file with
  | none =>
    .ok ⟨set (set (set (set (set (fun _ => none) "start_date" "2020-01-01".toList)
      "start_time" "00:00:00".toList) "end_date" "2020-01-02".toList) "end_time" "00:00:00".toList)
      "duration_units" "minutes".toList, some 1440⟩
  | some lines =>
    match readEntries assignable (fun _ => none) lines with
    | .error e => .error e
    | .ok a =>
      match a "start_date".toList, a "start_time".toList, a "end_date".toList, a "end_time".toList with
      | some sd, some st, some ed, some et =>
        match getDuration (some sd) (some st) (some ed) (some et) (some "minutes") with
        | .error e => .error e
        | .ok d =>
          .ok ⟨set (set (set a "duration_units" "minutes".toList) "start_datetime" (sd ++ ' ' :: st))
            "end_datetime" (ed ++ ' ' :: et), some d⟩
      | _, _, _, _ => .error "AttributeError"

/-- The period in the metadata of a netCDF file: start, end, length in the time units of the file, and the data type
of its datetimes.  Used in the model of ncts_files.py:432-442. -/
structure Coverage where
  start : Text
  stop : Text
  duration : ℚ
  dtype : String
  deriving DecidableEq

/-- What `open_new_file` of the netCDF writers does with `time_info` (ncts_files.py:432-442, 545-549, 582;
ncgs_files.py:505-515, 703-706, 730; ncps_files.py:453-463, 570-573, 587; nccs_files.py:282-292, 491-494, 508). -/
def openCoverage (info : Info) (units : String) : Except String Coverage :=
  match info.text "start_date".toList, info.text "start_time".toList, info.text "end_date".toList,
      info.text "end_time".toList, info.text "start_datetime".toList, info.text "end_datetime".toList with
  | some sd, some st, some ed, some et, some s, some e =>
    match getDuration (some sd) (some st) (some ed) (some et) (some units) with
    | .error err => .error err
    | .ok d =>
      match timeDtype units with
      | none => .error "KeyError"
      | some ty => .ok ⟨s, e, d, ty⟩
  | _, _, _, _, _, _ => .error "AttributeError"

end TimeInfo
