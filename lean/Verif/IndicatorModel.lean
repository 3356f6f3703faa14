import Mathlib.Algebra.Order.Field.Basic
import Mathlib.Algebra.BigOperators.Group.List.Basic

/-!
# Model of the hydrologic indicators (`topoflow/utils/indicators.py`)

Monthly statistics of a stack of grids, days per month on which a condition occurs, and the
population affected by it.

Simplifications for the whole file:
* a grid is a function from cells to numbers of an ordered field; `float32` rounding is not
  modelled (in particular the computed variance is never negative by rounding);
* a frame is the month, the day of the month and the grid; the parsing of the datetime string
  (`split_datetime_str`) is the model of `TimeUtilsModel`; months are valid, so that
  `month - 1` is an element of `Fin 12`; the sentinels `-1` are `none`;
* division by zero gives `inf` or `nan` in numpy; both are `none` here;
* the netCDF files are the models of `NcModel`: here they are the sequences of grids.
-/

set_option autoImplicit false

namespace Indicator

/-- One grid of the input stack and its datetime, reduced to month (0 = January) and day.
Used in the model of indicators.py:331-399, 906-1027. -/
structure Frame (ι K : Type*) where
  month : Fin 12
  day : ℕ
  grid : ι → K

variable {ι K : Type*} [Field K] [LinearOrder K]

/-! ## `create_stat_grid_stacks` -/

/-- `max_num` (`utils/indicators.py` 304); `min_num` is `-max_num` (305). -/
def maxNum : K := 9999999

/-- The arrays of `create_stat_grid_stacks` (`utils/indicators.py` 304-328).  `n` is
`n_grids_per_month`, which is unbound before the first month (`month = none`). -/
structure Stat (ι K : Type*) where
  month : Option (Fin 12)
  n : ℕ
  minGrid : ι → K
  maxGrid : ι → K
  meanGrid : ι → K
  meanSqr : ι → K
  nYears : Fin 12 → ℕ
  mins : Fin 12 → ι → K
  maxs : Fin 12 → ι → K
  means : Fin 12 → ι → K
  sdevs : Fin 12 → ι → K

/-- Initial values (`utils/indicators.py` 304-328). -/
def statInit : Stat ι K where
  month := none
  n := 0
  minGrid := fun _ => 0 + maxNum
  maxGrid := fun _ => 0 + -maxNum
  meanGrid := fun _ => 0
  meanSqr := fun _ => 0
  nYears := fun _ => 0
  mins := fun _ _ => 0 + maxNum
  maxs := fun _ _ => 0 + -maxNum
  means := fun _ _ => 0
  sdevs := fun _ _ => 0

/-- The end of a month: means, standard deviations, and the update of the twelve grids
(`utils/indicators.py` 347-363, and 405-418 for the last month, where `n_years` is not
incremented: `count = false`).  `rt` is `np.sqrt`. -/
def endMonth (rt : K → K) (count : Bool) (m : Fin 12) (s : Stat ι K) : Stat ι K :=
  let mean := fun c => s.meanGrid c / s.n
  let msq := fun c => s.meanSqr c / s.n
  let sdev := fun c => rt (msq c - mean c ^ 2)
  { s with
    meanGrid := mean
    meanSqr := msq
    nYears := if count then Function.update s.nYears m (s.nYears m + 1) else s.nYears
    mins := Function.update s.mins m (fun c => min (s.minGrid c) (s.mins m c))
    maxs := Function.update s.maxs m (fun c => max (s.maxGrid c) (s.maxs m c))
    means := Function.update s.means m (fun c => s.means m c + mean c)
    sdevs := Function.update s.sdevs m (fun c => s.sdevs m c + sdev c) }

/-- Start of a new month: the grids of the month are set in place (`utils/indicators.py`
370-377). -/
def newMonth (m : Fin 12) (s : Stat ι K) : Stat ι K :=
  { s with
    month := some m
    n := 0
    minGrid := fun c => max (s.minGrid c) maxNum
    maxGrid := fun c => min (s.maxGrid c) (-maxNum)
    meanGrid := fun _ => 0
    meanSqr := fun _ => 0 }

/-- A grid is added to the statistics of its month; the grid with time index 0 is left out of
the minimum (`utils/indicators.py` 382-399). -/
def addGrid (first : Bool) (g : ι → K) (s : Stat ι K) : Stat ι K :=
  { s with
    n := s.n + 1
    minGrid := if first then s.minGrid else fun c => min (s.minGrid c) (g c)
    maxGrid := fun c => max (s.maxGrid c) (g c)
    meanGrid := fun c => s.meanGrid c + g c
    meanSqr := fun c => s.meanSqr c + g c ^ 2 }

/-- One pass of the loop over the grids (`utils/indicators.py` 331-399). -/
def statStep (rt : K → K) (first : Bool) (s : Stat ι K) (f : Frame ι K) : Stat ι K :=
  let s :=
    if s.month = some f.month then s
    else newMonth f.month
      (match s.month with
       | none => s
       | some m => endMonth rt true m s)
  addGrid first f.grid s

/-- The loop over the grids (`utils/indicators.py` 331-399): the first pass has
`time_index = 0`. -/
def statLoop (rt : K → K) : List (Frame ι K) → Stat ι K
  | [] => statInit
  | f :: fs => fs.foldl (statStep rt false) (statStep rt true statInit f)

/-- Division of numpy: `none` stands for `inf` and `nan`.
Used in the model of indicators.py:405-450. -/
def npDiv (a : K) (n : ℕ) : Option K := if n = 0 then none else some (a / n)

/-- The four stacks of twelve grids that are written.
Used in the model of indicators.py:405-450. -/
structure StatOut (ι K : Type*) where
  min : Fin 12 → ι → K
  max : Fin 12 → ι → K
  mean : Fin 12 → ι → Option K
  sdev : Fin 12 → ι → Option K

/-- `create_stat_grid_stacks` (`utils/indicators.py` 140-450): the loop, the last month and
the division by the number of times each month occurred.  Without any grid, line 405 uses
the unbound `n_grids_per_month`.  File names, units and the metadata of the files are not
modelled. -/
def stats (rt : K → K) (fs : List (Frame ι K)) : Except String (StatOut ι K) :=
  let s := statLoop rt fs
  match s.month with
  | none => .error "UnboundLocalError: n_grids_per_month"
  | some m =>
    let s := endMonth rt false m s
    .ok { min := s.mins
          max := s.maxs
          mean := fun m c => npDiv (s.means m c) (s.nYears m)
          sdev := fun m c => npDiv (s.sdevs m c) (s.nYears m) }

/-! ## `create_day_count_grid_stack` -/

/-- `get_condition_map` (`utils/indicators.py` 732-742). -/
def conditionMap : List (String × String) :=
  [("low_discharge", "lo-Q"), ("high_discharge", "hi-Q"), ("flooding", "flood"),
   ("low_rainrate", "lo-rain"), ("high_rainrate", "hi-rain"),
   ("incr_discharge", "incr-Q"), ("decr_discharge", "decr-Q")]

/-- The five branches of the detection.
Used in the model of indicators.py:1008-1021. -/
inductive Kind
  | low | high | flood | incr | decr
  deriving DecidableEq

/-- `sub in s` for Python strings.
Used in the model of indicators.py:1008-1021. -/
def contains (sub s : String) : Bool := (s.toList.tails).any (fun t => sub.toList.isPrefixOf t)

/-- The branch that a condition takes (`utils/indicators.py` 1008-1021); a condition that is
not in the map is stopped earlier, by `cmap[condition]` (797). -/
def kindOf (cond : String) : Except String Kind :=
  if conditionMap.lookup cond = none then .error "KeyError"
  else if contains "low" cond then .ok .low
  else if contains "high" cond then .ok .high
  else if cond = "flooding" then .ok .flood
  else if contains "incr_" cond then .ok .incr
  else if contains "decr_" cond then .ok .decr
  else .error "unbound w"

/-- The variables of the loop of `create_day_count_grid_stack` (`utils/indicators.py`
881-898); `out` are the grids written so far. -/
structure Days (ι K : Type*) where
  month : Option (Fin 12)
  day : Option ℕ
  days : ι → ℕ
  detect : ι → Bool
  last : ι → K
  thr : ι → Option K
  out : List (ι → ℕ)

/-- Initial values (`utils/indicators.py` 881-898). -/
def daysInit : Days ι K where
  month := none
  day := none
  days := fun _ => 0
  detect := fun _ => false
  last := fun _ => 0
  thr := fun _ => none
  out := []

/-- Sum and difference of mean and standard deviation.  If one of them is `inf` or `nan`
then the comparisons made with the result are all false: `mean` is `nan`, `inf` or `-inf`
together with `sdev` being `nan` or `inf` (same divisor), and `grid < -inf`, `grid > inf` and
comparisons with `nan` are false.
Used in the model of indicators.py:943-969. -/
def npAdd (a b : Option K) : Option K := do return (← a) + (← b)
/-- See `npAdd`.
Used in the model of indicators.py:943-969. -/
def npSub (a b : Option K) : Option K := do return (← a) - (← b)

/-- The threshold grid of a month (`utils/indicators.py` 943-969). -/
def threshold (k : Kind) (mean sdev : Option K) : Option K :=
  match k with
  | .low => npSub mean sdev
  | .high => npAdd mean sdev
  | _ => none

/-- Where the condition holds (`utils/indicators.py` 1008-1021). -/
def detects (k : Kind) (thr : Option K) (last x : K) : Bool :=
  match k with
  | .low => match thr with | none => false | some t => decide (x < t)
  | .high => match thr with | none => false | some t => decide (x > t)
  | .flood => decide (x > 1 / 10)
  | .incr => decide (x > last)
  | .decr => decide (x < last)

/-- Start of a new month (`utils/indicators.py` 916-969).  The twelve mean and standard
deviation grids exist, so the `except` branch (949-959) is not taken. -/
def dayNewMonth (k : Kind) (mean sdev : Fin 12 → ι → Option K) (m : Fin 12)
    (s : Days ι K) : Days ι K :=
  if s.month = some m then s
  else
    { s with
      out := if s.month = none then s.out else s.out ++ [s.days]
      month := some m
      days := fun _ => 0
      thr := fun c => threshold k (mean m c) (sdev m c) }

/-- Start of a new day (`utils/indicators.py` 978-995). -/
def dayNewDay (d : ℕ) (s : Days ι K) : Days ι K :=
  if s.day = some d then s
  else
    { s with
      days := if s.day = none then s.days
              else fun c => if s.detect c = true then s.days c + 1 else s.days c
      day := some d
      detect := fun _ => false }

/-- The detection in one grid (`utils/indicators.py` 1000-1027). -/
def dayDetect (k : Kind) (g : ι → K) (s : Days ι K) : Days ι K :=
  { s with
    detect := fun c => if detects k (s.thr c) (s.last c) (g c) = true then true else s.detect c
    last := if k = .incr ∨ k = .decr then g else s.last }

/-- One pass of the loop (`utils/indicators.py` 906-1027). -/
def dayStep (k : Kind) (mean sdev : Fin 12 → ι → Option K) (s : Days ι K) (f : Frame ι K) :
    Days ι K :=
  dayDetect k f.grid (dayNewDay f.day (dayNewMonth k mean sdev f.month s))

/-- `create_day_count_grid_stack` (`utils/indicators.py` 746-1047): the grids that are
written, the last one by lines 1033-1035.  File names, units and metadata are not modelled. -/
def dayCounts (cond : String) (mean sdev : Fin 12 → ι → Option K) (fs : List (Frame ι K)) :
    Except String (List (ι → ℕ)) :=
  match kindOf cond with
  | .error e => .error e
  | .ok k =>
    let s := fs.foldl (dayStep k mean sdev) daysInit
    .ok (s.out ++ [s.days])

/-! ## `create_affected_population_grid_stack` -/

/-- `create_affected_population_grid_stack` (`utils/indicators.py` 1307-1335): negative
(nodata) values of the population grid are set to 0 in place (1307-1309); one grid is written
for each grid of day counts. -/
def affected (pop : ι → K) (counts : List (ι → ℕ)) : List (ι → K) :=
  let pop := fun c => if pop c < 0 then 0 else pop c
  counts.map (fun days c => if days c > 0 then pop c else 0)

end Indicator
