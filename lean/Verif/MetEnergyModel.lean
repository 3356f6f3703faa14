import Mathlib.Analysis.SpecialFunctions.Pow.Real
import Mathlib.Analysis.SpecialFunctions.Log.Basic

/-!
# The energy fluxes of the meteorology component

topoflow/components/met_base.py.  All these updates are elementwise, so the functions below are those of
one cell; values are real numbers (rounding, overflow and NaN are not modelled).
-/

set_option autoImplicit false

noncomputable section

namespace MetEnergy

/-- `update_saturation_vapor_pressure` with `MBAR=True`, met_base.py:1657-1741, in millibar; `SATTERLUND`
chooses the method. -/
def eSat (satterlund : Bool) (T : ℝ) : ℝ :=
  if satterlund then
    let term1 := 2353 / (T + 273.15)
    ((10 : ℝ) ^ (11.4 - term1)) / 1000 * 10
  else
    let term1 := (17.3 * T) / (T + 237.3)
    0.611 * Real.exp term1 * 10

/-- `update_vapor_pressure`, met_base.py:1743-1788. -/
def vaporPressure (RH e_sat : ℝ) : ℝ := RH * e_sat

/-- `update_dew_point`, met_base.py:1790-1835. -/
def dewPoint (e_air : ℝ) : ℝ :=
  let log_term := Real.log (e_air / 6.1121)
  257.14 * log_term / (18.678 - log_term)

/-- `update_T_surf`, met_base.py:1837-1853, for a surface temperature of type 'scalar' or 'grid'. -/
def surfaceTemp (h_snow h_ice T_dew : ℝ) : ℝ :=
  if h_snow > 0 ∨ h_ice > 0 then min T_dew 0 else T_dew

/-- `update_precipitable_water_content`, met_base.py:1855-1872. -/
def precipitableWater (T_dew : ℝ) : ℝ := 1.12 * Real.exp (0.0614 * T_dew)

/-- `update_bulk_richardson_number`, met_base.py:1448-1474; `g = 9.81`. -/
def richardson (z uz T_air T_surf : ℝ) : ℝ :=
  (9.81 * z * (T_air - T_surf)) / (uz ^ 2 * (T_air + 273.15))

/-- `Dn` in `update_bulk_aero_conductance`, met_base.py:1506-1507; `kappa = 0.408`. -/
def neutralConductance (z h_snow z0_air uz : ℝ) : ℝ :=
  uz * (0.408 / Real.log ((z - h_snow) / z0_air)) ^ 2

/-- `Dh` and `De` in `update_bulk_aero_conductance`, met_base.py:1509-1614.  A cell with equal
temperatures has `Ri = 0`, for which the correction changes nothing, so the shortcut for grids that are
neutral everywhere needs no case. -/
def conductance (Dn Ri : ℝ) : ℝ :=
  if Ri > 0 then Dn / (1 + 10 * Ri) else Dn * (1 - 10 * Ri)

/-- `update_sensible_heat_flux`, met_base.py:1627-1655; `rho_air = 1.2614`, `Cp_air = 1005.7`. -/
def sensibleHeat (Dh T_air T_surf : ℝ) : ℝ := (1.2614 * 1005.7) * Dh * (T_air - T_surf)

/-- `update_latent_heat_flux`, met_base.py:1875-1903; `Lv = 2500000`, `latent_heat_constant = 0.622`. -/
def latentHeat (De e_air e_surf p0 : ℝ) : ℝ :=
  (1.2614 * 2500000 * De) * (e_air - e_surf) * (0.622 / p0)

/-- The part of `update_albedo` with `method='aging'` that keeps the number of days since the last
major snowfall, met_base.py:2022-2023: `total` is the snowfall of the last three days. -/
def snowAge (days_per_dt total n : ℝ) : ℝ :=
  let n1 := if total ≥ 0.03 then 0 else n
  if total < 0.03 then n1 + days_per_dt else n1

/-- `snow_albedo` in `update_albedo`, met_base.py:2011-2024. -/
def snowAlbedo (T_air n : ℝ) : ℝ :=
  let r := if T_air > 0 then 0.12 else 0.05
  0.4 + 0.44 * Real.exp (-n * r)

/-- The albedo of a cell, met_base.py:2026-2032. -/
def albedo (old h_snow h_ice T_air n : ℝ) : ℝ :=
  let a1 := if h_snow > 0 then snowAlbedo T_air n else old
  let a2 := if h_snow = 0 ∧ h_ice > 0 then 0.3 else a1
  if h_snow = 0 ∧ h_ice = 0 then 0.15 else a2

/-- The rolling window of snowfall depths in `update_albedo`, met_base.py:2015-2017: `np.roll` by -1
puts the oldest entry last, where it is overwritten.  A window without entries raises IndexError. -/
def rollWindow (w : List ℝ) (depth : ℝ) : Option (List ℝ) :=
  match w with
  | [] => none
  | _ :: rest => some (rest ++ [depth])

/-- `update_em_air`, met_base.py:2090-2149, in terms of the vapour pressure in millibar. -/
def airEmissivity (satterlund : Bool) (F C e_air T_air : ℝ) : ℝ :=
  let T_air_K := T_air + 273.15
  if satterlund then
    1.08 * (1 - Real.exp (-1 * e_air ^ (T_air_K / 2016)))
  else
    let e_air_kPa := e_air / 10
    let term1 := (1 - F) * 1.72 * (e_air_kPa / T_air_K) ^ ((1 : ℝ) / 7)
    let term2 := 1 + 0.22 * C ^ 2
    term1 * term2 + F

/-- `update_net_longwave_radiation`, met_base.py:2163-2207; `sigma = 5.67E-8`. -/
def netLongwave (em_air em_surf T_air T_surf : ℝ) : ℝ :=
  let LW_in := em_air * 5.67e-8 * (T_air + 273.15) ^ 4
  let LW_out := em_surf * 5.67e-8 * (T_surf + 273.15) ^ 4 + (1 - em_surf) * LW_in
  LW_in - LW_out

end MetEnergy
