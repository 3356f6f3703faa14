import Verif.TimeUtilsModel
import Verif.TableModel
import Verif.ParamModel

/-!
# Observed and simulated series of the calibration (`topoflow/utils/calibrate.py`)

Reading a table of times and values, converting the times, interpolating the observations to the times of the model,
and writing the tried parameter into a grid.  Numbers are rational: the rounding to `float32` is not modelled.
-/

set_option autoImplicit false

namespace Series

open TimeUtils (Text Val)

/-- `line.split( delim )` (calibrate.py: 335, 1114): white space for `None`; simplified to delimiters of one character. -/
def splitLine : Option Char → Text → List Text
  | none, line => Table.words line
  | some d, line => TimeUtils.splitOn d line

/-- One data line (calibrate.py: 342-346, 1121-1125): `num` stands for `np.float32`, which fails on what is not a
number; `asText` is `time_type != 'float'`. -/
def readLine (num : Text → Except String ℚ) (asText : Bool) (tc vc : ℕ) (w : List Text) : Except String (Val × ℚ) := do
  let t ← if asText then .ok (Val.text (w.getD tc [])) else do
    let q ← num (w.getD tc [])
    .ok (Val.num q)
  let v ← num (w.getD vc [])
  .ok (t, v)

/-- The loop of `read_time_series` and `read_any_time_series` (calibrate.py: 329-348, 1108-1127): a line with too few
columns ends the reading with a message. -/
def readRows (num : Text → Except String ℚ) (asText : Bool) (delim : Option Char) (tc vc : ℕ) :
    List Text → Except String (List (Val × ℚ))
  | [] => .ok []
  | line :: rest =>
    let w := splitLine delim line
    if w.length ≤ tc ∨ w.length ≤ vc then .ok []
    else do
      let r ← readLine num asText tc vc w
      let rs ← readRows num asText delim tc vc rest
      .ok (r :: rs)

/-- `read_time_series` (calibrate.py: 294-381), `read_any_time_series` (1090-1141): the lines of the file, of which the
header is skipped. -/
def readSeries (num : Text → Except String ℚ) (asText : Bool) (delim : Option Char) (hdr tc vc : ℕ) (file : List Text) :
    Except String (List (Val × ℚ)) := readRows num asText delim tc vc (file.drop hdr)

/-- `[f(x) for x in xs]` where `f` may fail.
Used in the model of calibrate.py:500-536. -/
def mapE {α β : Type} (f : α → Except String β) : List α → Except String (List β)
  | [] => .ok []
  | x :: xs => do
    let y ← f x
    let ys ← mapE f xs
    .ok (y :: ys)

/-- The text of a time; a number cannot get here (`time_type` is text for these formats, calibrate.py: 552-555). -/
def asTextE : Val → Except String Text
  | .text s => .ok s
  | .num _ => .error "TypeError"

/-- The number of a time; a text cannot get here.
Used in the model of calibrate.py:552-555. -/
def asNumE : Val → Except String ℚ
  | .num x => .ok x
  | .text _ => .error "TypeError"

/-- `convert_obs_time_format` (calibrate.py: 500-536).  Dates get the time of midnight, in strings of at most 19
characters (519-522), and are counted from the first; other formats are left as they are. -/
def convertTimes (otf : String) (start : Text) (times : List Val) : Except String (List ℚ) :=
  if otf = "hhmm" then
    match mapE TimeUtils.hhmmToMinutes times with
    | .error e => .error e
    | .ok [] => .error "IndexError"
    | .ok (m :: ms) => .ok ((m :: ms).map (· - m))
  else if otf = "date" then
    match mapE asTextE times with
    | .error e => .error e
    | .ok [] => .error "IndexError"
    | .ok (d :: ds) =>
      let full : List Text := (d :: ds).map fun s => (s ++ " 00:00:00".toList).take 19
      match TimeUtils.fromOneStr (full.headD []) with
      | .error e => .error e
      | .ok origin => mapE (TimeUtils.datetimeToMinutes origin) full
  else if otf = "datetime" then
    match mapE asTextE times with
    | .error e => .error e
    | .ok ss =>
      match TimeUtils.fromOneStr start with
      | .error e => .error e
      | .ok origin => mapE (TimeUtils.datetimeToMinutes origin) ss
  else mapE asNumE times

/-! ### Interpolation -/

/-- `np.searchsorted(xs, t)`: how many entries lie below `t`.
Used in the model of calibrate.py:416-417. -/
def below (xs : List ℚ) (t : ℚ) : ℕ := (xs.filter (· < t)).length

/-- `interp1d(times, values, kind='linear', fill_value='extrapolate')` of SciPy (calibrate.py: 416-417, 484-485): the
segment is the one that ends at the first time not below `t`, or the first or last segment.  Simplified: times that
increase (SciPy sorts them), at least two of them. -/
def linearAt (xs ys : List ℚ) (t : ℚ) : ℚ :=
  let i := max 1 (min (below xs t) (xs.length - 1))
  let slope := (ys.getD i 0 - ys.getD (i - 1) 0) / (xs.getD i 0 - xs.getD (i - 1) 0)
  slope * (t - xs.getD (i - 1) 0) + ys.getD (i - 1) 0

/-- The midpoints of neighbours, `x_bds` of SciPy.
Used in the model of calibrate.py:416-417. -/
def midpoints : List ℚ → List ℚ
  | x :: y :: rest => (x / 2 + y / 2) :: midpoints (y :: rest)
  | _ => []

/-- `interp1d(times, values, kind='nearest', fill_value='extrapolate')` of SciPy (calibrate.py: 416-417). -/
def nearestAt (xs ys : List ℚ) (t : ℚ) : ℚ := ys.getD (below (midpoints xs) t) 0

/-- `obs_interp_method`; the other kinds of SciPy are not modelled.
Used in the model of calibrate.py:416-417. -/
inductive Kind
  | linear
  | nearest

/-- The interpolating function for each kind (calibrate.py: 416-417). -/
def interpAt : Kind → List ℚ → List ℚ → ℚ → ℚ
  | .linear => linearAt
  | .nearest => nearestAt

/-- `obs_time_interval`, `sim_time_interval`: the word `irregular`, or a number.
Used in the model of calibrate.py:608-609. -/
inductive Interval
  | irregular
  | num (x : ℚ)

/-- The decision on calibrate.py: 608-609; a text and a number cannot be compared. -/
def interpolates : Interval → Interval → Except String Bool
  | .irregular, _ => .ok true
  | .num _, .irregular => .error "TypeError"
  | .num o, .num s => .ok (s < o)

/-- The observed times and values after `get_observed_values` (calibrate.py: 540-651, 383-457). -/
def observed (k : Kind) (oi si : Interval) (ot ov st : List ℚ) : Except String (List ℚ × List ℚ) :=
  match interpolates oi si with
  | .error e => .error e
  | .ok true => .ok (st, st.map (interpAt k ot ov))
  | .ok false => .ok (ot, ov)

/-- The pairs (observed, simulated) whose differences make up the cost of a run (calibrate.py: 779-815, 925-940): the
observations are prepared once, with the times `st` of the first run, and the longer series is cut. -/
def compared (k : Kind) (oi si : Interval) (ot ov st : List ℚ) (sv : List ℚ) : Except String (List (ℚ × ℚ)) :=
  match observed k oi si ot ov st with
  | .error e => .error e
  | .ok (_, o) => .ok (o.zip sv)

/-! ### The tried value -/

/-- The fixed parameters of `calibrate` (calibrate.py: 835-845, 871-874). -/
structure Fixed where
  width_max : ℝ
  width_power : ℝ
  n_min : ℝ
  n_max : ℝ

/-- What `modify_channel_grid_file` hands to `get_grid_from_TCA` and the file it writes (calibrate.py: 739-775). -/
noncomputable def gridArgs (f : Fixed) (calVar : String) (param : ℝ) : Option (String × Param.Args) :=
  if calVar = "channel_width_power" then some ("_chan-w.rtg", ⟨none, some f.width_max, none, none, some param⟩)
  else if calVar = "channel_width_max" then some ("_chan-w.rtg", ⟨none, some param, none, none, some f.width_power⟩)
  else if calVar = "manning_n_min" then some ("_chan-n.rtg", ⟨none, some param, none, some f.n_max, none⟩)
  else if calVar = "manning_n_max" then some ("_chan-n.rtg", ⟨none, some f.n_min, none, some param, none⟩)
  else none

/-- The file saved before and restored after the runs (`calibrate`, `backup_input_file`: calibrate.py: 699-715, 857-865). -/
def backedUp (calVar : String) : Option String :=
  if calVar = "channel_width_max" ∨ calVar = "channel_width_power" then some "_chan-w.rtg"
  else if calVar = "manning_n_min" ∨ calVar = "manning_n_max" then some "_chan-n.rtg"
  else none

end Series
