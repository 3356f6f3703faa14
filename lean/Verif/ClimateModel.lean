import Verif.SolarModel
import Mathlib.Algebra.BigOperators.Fin
import Mathlib.Data.Fintype.BigOperators

/-!
# Climate indicators and classes of basins

topoflow/utils/ngen/swb_utils.py (seasonal water balance classes), topoflow/utils/ngen/gages2_utils.py (timing of
precipitation, snow fraction, aridity, merging of tables) and topoflow/utils/ngen/classify.py (indicators of Knoben and
the evaporation of Hamon; topoflow/utils/ngen/knoben_utils.py holds the same functions).

Simplifications: `float32` and `float64` are exact numbers; the decimal constants of the class boundaries are exact;
the entries of the tables are the numbers, not their spelling.
-/

set_option autoImplicit false

noncomputable section

namespace Climate

/-! ## Seasonal water balance classes -/

section Swb

variable {K : Type} [Field K] [LinearOrder K]

/-- The class boundaries set in `get_swb_class` (swb_utils.py:82-265) that depend on the options. -/
structure Bounds (K : Type) where
  aDpMax : K
  cDpMin : K
  d2DpMin : K
  d3DpMin : K
  d1DpMax : K
  d2DpMax : K
  d3DpMax : K
  d1PhiMin : K
  d2PhiMin : K
  d3PhiMin : K
  a3FsMax : K
  cFsMax : K
  a3PhiMax : K
  c2PhiMax : K
  b3PhiMax : K

/-- The boundaries for the options (swb_utils.py:88-115, 121-136, 142-158, 208-222, 247-265). -/
def bounds (original useB3 : Bool) : Bounds K where
  aDpMax := if original then -(4 / 10) else -(1 / 10)
  cDpMin := if original then 0 else -(1 / 10)
  d2DpMin := if original then -(1 / 10) else -(1 / 10)
  d3DpMin := if original then -(1 / 10) else -(1 / 10)
  d1DpMax := if original then 3 / 10 else 1
  d2DpMax := if original then 3 / 10 else 1
  d3DpMax := if original then 4 / 10 else 1
  d1PhiMin := if original then 5 / 10 else 0
  d2PhiMin := if original then 5 / 10 else 0
  d3PhiMin := if original then 4 / 10 else 0
  a3FsMax := if original || useB3 then 45 / 100 else 1
  cFsMax := if original then 25 / 100 else 45 / 100
  a3PhiMax := if original then 5 else 58 / 10
  c2PhiMax := if original then 53 / 10 else 58 / 10
  b3PhiMax := if original then 53 / 10 else 58 / 10

/-- `(lo < x) and (x <= hi)`.  Used in the model of swb_utils.py:271-284. -/
def within (lo x hi : K) : Bool := decide (lo < x) && decide (x ≤ hi)

/-- The checks of the A classes (swb_utils.py:271-284). -/
def checkA (b : Bounds K) (dp fs phi : K) (cls : String) : String :=
  if within (-1) dp b.aDpMax then
    if within 0 phi (75 / 100) then
      if within 0 fs (45 / 100) then "A1" else cls
    else if within (75 / 100) phi (175 / 100) then
      if within 0 fs (45 / 100) then "A2" else cls
    else if within (175 / 100) phi b.a3PhiMax then
      if within 0 fs b.a3FsMax then "A3" else cls
    else cls
  else cls

/-- The checks of the B classes (swb_utils.py:290-302). -/
def checkB (b : Bounds K) (useB3 : Bool) (dp fs phi : K) (cls : String) : String :=
  if within (-1) dp 1 then
    if within (45 / 100) fs 1 then
      if within 0 phi (75 / 100) then "B1"
      else if within (75 / 100) phi (175 / 100) then "B2"
      else if within (175 / 100) phi b.b3PhiMax then
        if useB3 then "B3" else cls
      else cls
    else cls
  else cls

/-- The checks of the C classes (swb_utils.py:308-313). -/
def checkC (b : Bounds K) (dp fs phi : K) (cls : String) : String :=
  if within b.cDpMin dp 1 then
    if decide (0 ≤ fs) && decide (fs ≤ b.cFsMax) then
      if within (90 / 100) phi (15 / 10) then "C1"
      else if within (15 / 10) phi b.c2PhiMax then "C2"
      else cls
    else cls
  else cls

/-- The checks of the D classes (swb_utils.py:320-333). -/
def checkD (b : Bounds K) (dp fs phi : K) (cls : String) : String :=
  if fs = 0 then
    if within (-(4 / 10)) dp b.d1DpMax then
      if within b.d1PhiMin phi (90 / 100) then "D1" else cls
    else cls
  else if within 0 fs (2 / 10) then
    if within b.d2DpMin dp b.d2DpMax then
      if within b.d2PhiMin phi (90 / 100) then "D2" else cls
    else cls
  else if within (2 / 10) fs (45 / 100) then
    if within b.d3DpMin dp b.d3DpMax then
      if within b.d3PhiMin phi (90 / 100) then "D3" else cls
    else cls
  else cls

/-- `get_swb_class` (swb_utils.py:39-362) for numbers; the defaults are `original = false`, `useB3 = true`. -/
def swbClass (original useB3 : Bool) (dp fs phi : K) : String :=
  let b := bounds (K := K) original useB3
  checkD b dp fs phi (checkC b dp fs phi (checkB b useB3 dp fs phi (checkA b dp fs phi "None")))

/-- `get_swb_class_names` (swb_utils.py:27-35); the default is `useB3 = false`. -/
def swbNames (useB3 : Bool) : List String :=
  if useB3 then ["A1", "A2", "A3", "B1", "B2", "B3", "C1", "C2", "D1", "D2", "D3", "None"]
  else ["A1", "A2", "A3", "B1", "B2", "C1", "C2", "D1", "D2", "D3", "None"]

end Swb

/-! ## Timing of precipitation, snow fraction, aridity -/

open Real

/-- `get_snow_precip_fraction` (gages2_utils.py:1178-1204): with `UNITS='percent'` the result is never assigned. -/
def snowFraction (units : String) (pct : ℝ) : Except String ℝ :=
  let val := if pct = -9999 then 0 else pct
  if units.toLower ≠ "percent" then .ok (val / 100)
  else .error "UnboundLocalError: f_s"

/-- The last part of `get_precip_timing_index` (gages2_utils.py:1300-1376), for a finite ratio `T_bs`. -/
def timingOf (fs Tbs : ℝ) : ℝ :=
  if -1 < Tbs ∧ Tbs < 1 then
    let numer := π - (2 * fs * π) - (2 * arcsin Tbs)
    let denom := 2 * √(1 - Tbs ^ 2)
    min (max (numer / denom) (-0.999)) 0.999
  else if Tbs ≤ -1 then -1
  else 1

/-- `get_precip_timing_index` (gages2_utils.py:1208-1388) from the average and the range of temperature: with a range of
zero the ratio `T_bs` is an infinity, or `nan` at one degree, for which no branch sets the result. -/
def timingIndex (fs Tavg Trng : ℝ) : Except String ℝ :=
  let Tamp := |Trng| / 2
  if Tamp = 0 then
    if Tavg < 1 then .ok (-1)
    else if 1 < Tavg then .ok 1
    else .error "UnboundLocalError: delta_p"
  else .ok (timingOf fs ((Tavg - 1) / Tamp))

/-- Largest entry of twelve monthly values.  Used in the model of gages2_utils.py:1244-1255. -/
def top (v : Fin 12 → ℝ) : ℝ := Finset.univ.sup' ⟨0, Finset.mem_univ _⟩ v

/-- Smallest entry of twelve monthly values.  Used in the model of gages2_utils.py:1244-1255. -/
def bot (v : Fin 12 → ℝ) : ℝ := Finset.univ.inf' ⟨0, Finset.mem_univ _⟩ v

/-- `range_method == 1` (gages2_utils.py:1244-1255): average and range of the monthly temperatures. -/
def timingMonthly (fs : ℝ) (T : Fin 12 → ℝ) : Except String ℝ :=
  timingIndex fs ((∑ k, T k) / 12) (top T - bot T)

/-- `get_aridity_index` (gages2_utils.py:1392-1420): evaporation in mm, precipitation in cm.  (A precipitation of zero,
which gives an infinity or `nan`, is excluded in the theorems.) -/
def aridityIndex (pet p : ℝ) : ℝ := (pet / 10) / p

/-! ## Indicators of Knoben -/

/-- `get_knoben_monthly_moisture_index` (classify.py:1687-1702; knoben_utils.py has the same). -/
def moistureIndex (P E : ℝ) : ℝ :=
  if E < P then 1 - E / P
  else if E = P then 0
  else P / E - 1

/-- `get_knoben_monthly_MI_array` (classify.py:1706-1719). -/
def moistureArray (P E : Fin 12 → ℝ) : Fin 12 → ℝ := fun k => moistureIndex (P k) (E k)

/-- `get_annual_aridity` (classify.py:1723-1734). -/
def annualAridity (P E : Fin 12 → ℝ) : ℝ := (∑ k, E k) / (∑ k, P k)

/-- `get_knoben_annual_aridity` (classify.py:1738-1749). -/
def knobenAridity (MI : Fin 12 → ℝ) : ℝ := (∑ k, MI k) / 12

/-- `get_knoben_annual_seasonality` (classify.py:1753-1762). -/
def knobenSeasonality (MI : Fin 12 → ℝ) : ℝ := top MI - bot MI

/-- `get_knoben_annual_snow_fraction` (classify.py:1766-1771). -/
def knobenSnow (P T : Fin 12 → ℝ) : ℝ := (∑ k, if T k < 0 then P k else 0) / (∑ k, P k)

/-- `convert_knoben_aridity` (classify.py:1342-1358), one entry.  (At `-1` the code divides by zero; excluded in the
theorems.) -/
def convertAridity (m : ℝ) : ℝ := if 0 ≤ m then 1 - m else 1 / (m + 1)

/-! ## Evaporation of Hamon -/

/-- `get_day_angle` (classify.py:1427-1452), radians. -/
def dayAngle (J : ℝ) : ℝ := (2 * π) * J / 365

/-- `get_declination` (classify.py:1456-1496), radians. -/
def declination (a : ℝ) : ℝ :=
  0.006918 - (0.399912 * cos a) + (0.070257 * sin a) - (0.006758 * cos (2 * a)) + (0.000907 * sin (2 * a))
    - (0.002697 * cos (3 * a)) + (0.001480 * sin (3 * a))

/-- Hours of daylight (classify.py:1526-1531); `none` is `nan`, the arc cosine of a number outside `[-1, 1]`. -/
def daylight (J lat : ℝ) : Option ℝ :=
  let x := -1 * (tan (lat * (π / 180)) * tan (declination (dayAngle J)))
  if |x| ≤ 1 then some ((24 / π) * arccos x) else none

/-- Saturation vapour pressure (classify.py:1551), kPa. -/
def eSat (T : ℝ) : ℝ := 0.6108 * exp (17.27 * T / (T + 237.3))

/-- Saturation vapour density (classify.py:1558). -/
def pSat (T : ℝ) : ℝ := 216.7 * eSat T / (T + 273.16)

/-- `get_total_PET_for_day` (classify.py:1500-1577). -/
def petDay (J T lat : ℝ) : Option ℝ := (daylight J lat).map fun n => 0.1651 * (n / 12) * pSat T

/-- `day_map` (classify.py:1653). -/
def dayMap : List ℕ := [31, 28, 31, 30, 31, 30, 31, 31, 30, 31, 30, 31]

/-- `start_days` (classify.py:1655-1656): zero and the cumulated sums. -/
def startDay (k : ℕ) : ℕ := (dayMap.take k).sum

/-- The sum over days `d, d+1, …, d+n-1` (classify.py:1661-1662). -/
def petDays (T lat : ℝ) (d : ℕ) : ℕ → Option ℝ
  | 0 => some 0
  | n + 1 =>
    match petDays T lat d n, petDay ((d + n : ℕ) : ℝ) T lat with
    | some a, some b => some (a + b)
    | _, _ => none

/-- `get_total_PET_for_month` (classify.py:1646-1670), month numbers 1 to 12. -/
def petMonth (m : ℕ) (T lat : ℝ) : Option ℝ :=
  petDays T lat (startDay (m - 1)) (startDay m - startDay (m - 1))

/-- `get_harmon_monthly_PET_array` (classify.py:1674-1683). -/
def petArray (T : Fin 12 → ℝ) (lat : ℝ) (k : Fin 12) : Option ℝ := petMonth (k + 1) (T k) lat

end Climate
