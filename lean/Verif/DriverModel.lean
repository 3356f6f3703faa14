import Mathlib.Algebra.Order.Field.Basic
import Mathlib.Data.Int.Notation

/-!
# The driver component (topoflow/components/topoflow_driver.py)

Stopping rules and the final mass-balance report.  Discharges and times are exact numbers (the
code uses float64).  Messages, log files and hydrograph plots are not modelled; the disabled state
of the driver is not modelled here.
-/

set_option autoImplicit false

namespace Driver

variable {K : Type*} [Field K] [LinearOrder K]

/-- The attributes used by the stopping rules. `dt` is in seconds.
Used in the model of topoflow_driver.py:856-945. -/
structure Drv (K : Type*) where
  method : String
  nSteps : ℤ
  TstopModel : K
  Qpf : K
  dt : K
  Tstop : K
  timeIndex : ℤ
  time : K
  timeMin : K
  nSame : ℤ
  Qlast : K
  done : Bool

/-- `steady_tol` and `nonzero_tol`, topoflow_driver.py:903-904. -/
def tol (K : Type*) [Field K] : K := 1 / 100000

/-- `n_same_max`, topoflow_driver.py:907. -/
def nSameMax : ℤ := 499

/-- `initialize_time_vars` and `initialize_stop_vars`, topoflow_driver.py:856-945; `Q0` is the
outlet discharge at that moment. For an unknown method `T_stop` is not set. -/
def init (d : Drv K) (Q0 : K) : Drv K :=
  { d with
    timeIndex := 0, time := 0, timeMin := 0, done := false, nSame := 0, Qlast := Q0
    Tstop := if d.method = "Q_peak_fraction" then 0
             else if d.method = "Until_model_time" then d.TstopModel
             else if d.method = "Until_n_steps" then d.nSteps * d.dt / 60
             else d.Tstop }

/-- `check_steady_state`, topoflow_driver.py:739-821: the new counter and the verdict. -/
def checkSteady (d : Drv K) (Q : K) : ℤ × Bool :=
  let dQ := |Q - d.Qlast|
  let n := if dQ ≤ tol K then d.nSame + 1 else 0
  (n, decide (d.method = "Q_peak_fraction" ∧ Q > tol K ∧ n > nSameMax))

/-- `check_finished`, topoflow_driver.py:642-737. `Q` and `Qpeak` are the channel component's
`Q_outlet` and `Q_peak` at the moment of the call. -/
def checkFinished (d : Drv K) (Q Qpeak : K) : Except String (Drv K) :=
  let finished : Except String Bool :=
    if d.method = "Q_peak_fraction" then
      .ok (if d.Qlast > Q then decide (Q ≤ Qpeak * d.Qpf ∧ Q > 0) else d.done)
    else if d.method = "Until_model_time" then .ok (decide (d.timeMin ≥ d.Tstop))
    else if d.method = "Until_n_steps" then .ok (decide (d.timeIndex ≥ d.nSteps))
    else .error "RuntimeError: No match found for expression"
  match finished with
  | .error e => .error e
  | .ok f =>
    let s := checkSteady d Q
    .ok { d with nSame := s.1, Qlast := Q, done := f || s.2 }

/-- `update`, topoflow_driver.py:495-546, with `update_time(-1)` of BMI_base.py:1029-1089 (the
driver's time unit is seconds). -/
def update (d : Drv K) (Q Qpeak : K) : Except String (Drv K) :=
  checkFinished { d with timeIndex := d.timeIndex + 1, time := d.time + d.dt,
                         timeMin := (d.time + d.dt) / 60 } Q Qpeak

/-- The loop `while not(driver.DONE): driver.update()` (emeli.py:1061-1080, BMI_base.py:919-942),
where at the `k`-th update the outlet discharge is `Q k` and the peak so far is `Qp k`.  The result
also gives the number of updates made; `none`: not finished within `fuel` updates. -/
def run (Q Qp : ℕ → K) : ℕ → ℕ → Drv K → Option (Except String (Drv K × ℕ))
  | 0, k, d => if d.done then some (.ok (d, k)) else none
  | fuel + 1, k, d =>
    if d.done then some (.ok (d, k))
    else match update d (Q (k + 1)) (Qp (k + 1)) with
      | .error e => some (.error e)
      | .ok d' => run Q Qp fuel (k + 1) d'

/-! ## The mass-balance report -/

/-- The volumes read from the other components.
Used in the model of topoflow_driver.py:1229-1296. -/
structure Vols (K : Type*) where
  P : K
  ET : K
  edge : K
  chan0 : K
  chan : K
  flood : K
  soil0 : K
  soil : K
  swe0 : K
  swe : K

/-- `add_storage_volumes_to_report`, topoflow_driver.py:1229-1296: the reported change in
storage; the initial flood volume is taken to be 0.0. -/
def storedChange (v : Vols K) : K :=
  let start := v.chan0 + v.soil0 + v.swe0 + 0
  let final := v.chan + v.soil + v.swe + v.flood
  final - start

/-- `add_mass_balance_to_report`, topoflow_driver.py:1298-1356: the reported error. -/
def volError (v : Vols K) : K := (v.P - (v.ET + v.edge)) - storedChange v

/-- The label printed before the error, topoflow_driver.py:1347-1351. -/
def errorLabel (v : Vols K) : String :=
  if volError v > 0 then "volume gain error" else "volume loss error"

end Driver
