import Mathlib.Analysis.SpecialFunctions.Pow.Real

/-!
# Humidity and lapse rate utilities (topoflow/utils/met_utils.py)

Real numbers (the code uses float32 and float64).
-/

set_option autoImplicit false

noncomputable section

namespace MetUtils

/-- The names of the methods that are known (met_utils.py:32-48). -/
inductive Method
  | brutsaert
  | satterlund
  | bolton

/-- `method` as an argument: not given, one of the known names, or any other value.
Used in the model of met_utils.py:22-66. -/
inductive Arg
  | default
  | known (m : Method)
  | other

/-- `saturation_vapor_pressure`, met_utils.py:22-66.  With an unknown method the name `e_sat` is not bound. -/
def eSat (T : ℝ) (method : Arg) (mbar : Bool) : Except String ℝ :=
  let kPa : Except String ℝ :=
    match method with
    | .default | .known .brutsaert => .ok (0.611 * Real.exp ((17.3 * T) / (T + 237.3)))
    | .known .satterlund => .ok ((10 : ℝ) ^ (11.4 - 2353 / (T + 273.15)) / 1000)
    | .known .bolton => .ok (0.6112 * Real.exp ((17.67 * T) / (T + 243.5)))
    | .other => .error "UnboundLocalError: e_sat"
  if mbar then kPa.map (fun e => e * 10) else kPa

/-- `relative_humidity`, met_utils.py:69-101; the same for numbers and for each element of an array. -/
def relativeHumidity (q T P : ℝ) (method : Arg) : Except String ℝ :=
  match eSat T method true with
  | .error e => .error e
  | .ok eSatAir =>
    let eAir := q * P / ((0.378 * q) + 0.622)
    .ok (max (min (eAir / eSatAir) 1) 0)

/-- `lapse_air_temperature`, met_utils.py:104-154: the frames of the new grid stack, one for each value of the
time series, each with the cells of the DEM in their order.  Reading of the DEM and of the time series and the
rounding to float32 are not modelled. -/
def lapse (dem : List ℝ) (refElev : ℝ) (temps : List ℝ) (LR : ℝ) : List (List ℝ) :=
  let elevDiff := dem.map fun z => z - refElev
  temps.map fun t => elevDiff.map fun dz => t - dz * LR

end MetUtils
