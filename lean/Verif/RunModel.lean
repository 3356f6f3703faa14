import Verif.BMIModel
import Mathlib.Algebra.Order.Ring.Rat
import Mathlib.Data.Rat.Floor

/-!
# Running one component by itself

`run_model` of `topoflow/utils/BMI_base.py:874-946`, which every component inherits and which the
unit tests of the components call: initialise the component as driver, update it until it is done,
finalise it.  The component itself is a parameter: what its methods do to its state and whether they
raise an exception.  Its `initialize` is called by keywords, so the names of the parameters of
`initialize` matter.  `os.chdir` and the messages are left out.
-/

set_option autoImplicit false

namespace Run

/-- The classes of components that define `initialize`. -/
inductive Cls where
  | bmi | channels | diversions | driver | snow | glacier | satzone | evap | infil | ice | met
  | erode | d8 | his | soil | smoothDem | tfD8 | basins
  deriving DecidableEq, Repr

/-- The parameters of `initialize` after `self`; all have defaults (BMI_base.py:227,
channels_base.py:633, diversions_base.py:61, topoflow_driver.py:425, snow_base.py:141,
glacier_base.py:135, satzone_base.py:127, evap_base.py:119, infil_base.py:185, ice_base.py:386,
met_base.py:625, erode_base.py:176, d8_base.py:251, HIS_base.py:252, soil_base.py:286,
smooth_DEM.py:262, tf_d8_base.py:128, basins.py:94). -/
def initParams : Cls → List String
  | .bmi => ["cfg_file", "mode"]
  | .d8 | .tfD8 => ["cfg_file", "mode", "SILENT", "REPORT"]
  | .soil => ["cfg_file", "REPORT"]
  | _ => ["cfg_file", "mode", "SILENT"]

/-- A component: the parameters of its `initialize`, and its methods.  A method leaves a state and
may raise an exception.  `nSteps`: the attribute `n_steps`, if there is one; `failed`: what
`self.status = 'failed'; self.DONE = True` does.  Used in the model of BMI_base.py:874-946. -/
structure Machine (S : Type*) where
  params : List String
  initialize' : (prefix' : Option String) → (mode : String) → S × Option String
  update : S → S × Option String
  check : S → S × Option String
  finalize : S → S × Option String
  done : S → Bool
  nSteps : S → Option ℤ
  failed : S → S

/-- What has been called so far. -/
inductive Call where
  | init | update | finalize
  deriving DecidableEq, Repr

/-- How a run ends: the state, the methods called and the exception, if any. -/
structure Ended (S : Type*) where
  state : S
  calls : List Call
  raised : Option String

/-- One pass of the loop, BMI_base.py:918-942: `update`, with exceptions caught if `skip`, and
`check_finished`. -/
def pass {S : Type*} (m : Machine S) (skip : Bool) (s : S) : S × Option String :=
  match m.update s with
  | (s1, none) => m.check s1
  | (s1, some e) => if skip then m.check (m.failed s1) else (s1, some e)

/-- The loop and the final call, BMI_base.py:918-946; `none` when `fuel` passes were not enough. -/
def loop {S : Type*} (m : Machine S) (skip : Bool) : ℕ → S → List Call → Option (Ended S)
  | fuel, s, calls =>
    if m.done s then
      some ⟨(m.finalize s).1, calls ++ [.finalize], (m.finalize s).2⟩
    else match fuel with
      | 0 => none
      | fuel + 1 => match pass m skip s with
        | (s1, some e) => some ⟨s1, calls ++ [.update], some e⟩
        | (s1, none) => loop m skip fuel s1 (calls ++ [.update])

/-- Python's call `f(k1=..., k2=...)` of a function with the given parameters, all with defaults:
a keyword that is not the name of a parameter raises TypeError before the body is run.
Used in the model of BMI_base.py:897. -/
def badKeyword (params kws : List String) : Bool := kws.any (fun k => !params.elem k)

/-- `run_model`, BMI_base.py:874-946, of a component in state `s0`.  The number of steps that is
chosen in lines 908-912 (`n_steps` of the component or else the argument) is not used after that. -/
def runModel {S : Type*} (m : Machine S) (skip : Bool) (cfgPrefix : Option String) (nSteps : ℤ)
    (fuel : ℕ) (s0 : S) : Option (Ended S) :=
  if badKeyword m.params ["cfg_prefix", "mode"] then some ⟨s0, [], some "TypeError"⟩
  else match m.initialize' cfgPrefix "driver" with
    | (s, some e) => some ⟨s, [.init], some e⟩
    | (s, none) =>
      let _nSteps := (m.nSteps s).getD nSteps
      loop m skip fuel s [.init]

/-- The clock of a component as a machine (`update` moves only the clock, BMI_base.py:265-270), with
`initialize` as it would have to be declared; the clock is set by `initialize_time_vars`
(BMI_base.py:950-1025), which gives `n_steps` the value 1 if the CFG file has none. -/
def clockMachine (dt : ℚ) (cfgSteps : Option ℤ) : Machine (BMI.Clock ℚ) where
  params := ["cfg_prefix", "mode"]
  initialize' := fun _ mode =>
    (BMI.initTimeVars ⟨"seconds", dt, mode, 0, cfgSteps.getD 1, 0, false, 0, 0, 0, 0, none,
      false⟩ "seconds", none)
  update := fun c => match BMI.update c with
    | .ok c1 => (c1, none)
    | .error e => (c, some e)
  check := fun c => match BMI.checkFinished c with
    | .ok c1 => (c1, none)
    | .error e => (c, some e)
  finalize := fun c => (c, none)
  done := fun c => c.done
  nSteps := fun c => some c.nSteps
  failed := fun c => { c with done := true }

end Run
