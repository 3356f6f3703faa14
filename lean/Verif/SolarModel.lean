import Mathlib.Analysis.SpecialFunctions.Pow.Real
import Mathlib.Analysis.SpecialFunctions.Trigonometric.Arctan
import Mathlib.Analysis.SpecialFunctions.Trigonometric.Inverse
import Verif.TimeUtilsModel

/-!
# Solar radiation

topoflow/components/solar_funcs.py and its callers in topoflow/components/met_base.py.  The numpy functions are
elementwise, so the functions below are those of one grid cell.  Values are real numbers: rounding, overflow and NaN
are not modelled (except the NaNs of the slope and aspect files, which are `none`), and `x / 0` is 0 rather than an
infinity; no theorem relies on that case.
-/

set_option autoImplicit false

noncomputable section

namespace Solar

open Real

/-- `Solar_Constant` (solar_funcs.py:133-143), W/m². -/
def solarConstant : ℝ := 1361.5

/-- `Day_Angle` (solar_funcs.py:147-172), radians. -/
def dayAngle (J : ℝ) : ℝ := (2 * π) * J / 365

/-- `Eccentricity_Correction` (solar_funcs.py:176-188). -/
def eccentricity (Γ : ℝ) : ℝ :=
  1.000110 + (0.034221 * cos Γ) + (0.001280 * sin Γ) + (0.000719 * cos (2 * Γ)) + (0.000077 * sin (2 * Γ))

/-- `Declination` (solar_funcs.py:192-232) with the default `DEGREES=False, DMS=False`, radians. -/
def declination (Γ : ℝ) : ℝ :=
  0.006918 - (0.399912 * cos Γ) + (0.070257 * sin Γ) - (0.006758 * cos (2 * Γ)) + (0.000907 * sin (2 * Γ))
    - (0.002697 * cos (3 * Γ)) + (0.001480 * sin (3 * Γ))

/-- `Earth_Angular_Velocity` (solar_funcs.py:236-244), radians per hour. -/
def omega : ℝ := (360 / 24) * (π / 180)

/-- `lat_deg * (np.pi / 180)` (e.g. solar_funcs.py:263). -/
def rad (deg : ℝ) : ℝ := deg * (π / 180)

/-- `Zenith_Angle` (solar_funcs.py:248-267), radians. -/
def zenith (lat δ th : ℝ) : ℝ :=
  let term1 := sin (rad lat) * sin δ
  let term2 := cos (rad lat) * cos δ * cos (omega * th)
  arccos (term1 + term2)

/-- `Solar_Elevation_Angle` (solar_funcs.py:271-282) with `DEGREES=False`. -/
def elevation (lat δ th : ℝ) : ℝ := π / 2 - zenith lat δ th

/-- The clipped argument of the arc cosine (solar_funcs.py:306-307, 334-335). -/
def riseArg (lat δ : ℝ) : ℝ := min (max (-1) (-1 * tan (rad lat) * tan δ)) 1

/-- `Sunrise_Offset` (solar_funcs.py:286-310), hours after true solar noon. -/
def sunrise (lat δ : ℝ) : ℝ := -1 * arccos (riseArg lat δ) / omega

/-- `Sunset_Offset` (solar_funcs.py:314-338), hours after true solar noon. -/
def sunset (lat δ : ℝ) : ℝ := arccos (riseArg lat δ) / omega

/-- `Day_Length` (solar_funcs.py:342-350), hours. -/
def dayLength (lat J : ℝ) : ℝ :=
  sunset lat (declination (dayAngle J)) - sunrise lat (declination (dayAngle J))

/-- `ET_Radiation_Flux` (solar_funcs.py:354-397), W/m². -/
def etFlux (lat J th : ℝ) : ℝ :=
  let Γ := dayAngle J
  let δ := declination Γ
  let term1 := cos δ * cos (rad lat) * cos (omega * th)
  let term2 := sin δ * sin (rad lat)
  max (solarConstant * eccentricity Γ * (term1 + term2)) 0

/-- `Optical_Air_Mass` (solar_funcs.py:477-549). -/
def airMass (lat δ th : ℝ) : ℝ :=
  let zDeg := zenith lat δ th * (180 / π)
  let γ := max (90 - zDeg) 0
  let term1 := sin (γ * (π / 180))
  let term2 := 0.50572 / (γ + 6.07995) ^ (1.6364 : ℝ)
  1 / (term1 + term2)

/-- `Dust_Attenuation` (solar_funcs.py:553-563). -/
def dustAttenuation : ℝ := 0.08

/-- `Atmospheric_Transmissivity` (solar_funcs.py:567-592); `dust` is `gamma_dust`. -/
def transmissivity (lat J Wp th dust : ℝ) : ℝ :=
  let δ := declination (dayAngle J)
  let a := -0.1240 - 0.0207 * Wp
  let b := -0.0682 - 0.0248 * Wp
  let tau := exp (a + b * airMass lat δ th) - dust
  min (max tau 0) 1

/-- `Direct_Radiation_Flux` (solar_funcs.py:596-615). -/
def directFlux (lat J Wp th dust : ℝ) : ℝ := transmissivity lat J Wp th dust * etFlux lat J th

/-- `Scattering_Attenuation` (solar_funcs.py:619-634). -/
def scattering (lat J Wp th dust : ℝ) : ℝ :=
  let δ := declination (dayAngle J)
  let a := -0.0363 - 0.0084 * Wp
  let b := -0.0572 - 0.0173 * Wp
  (1 - exp (a + b * airMass lat δ th)) + dust

/-- `Diffuse_Radiation_Flux` (solar_funcs.py:638-649). -/
def diffuseFlux (lat J Wp th dust : ℝ) : ℝ := 0.5 * scattering lat J Wp th dust * etFlux lat J th

/-- `Global_Radiation_Flux` (solar_funcs.py:653-667). -/
def globalFlux (lat J Wp th dust : ℝ) : ℝ := directFlux lat J Wp th dust + diffuseFlux lat J Wp th dust

/-- `BS_Radiation_Flux` (solar_funcs.py:671-697). -/
def backscatterFlux (lat J Wp albedo th dust : ℝ) : ℝ :=
  0.5 * scattering lat J Wp th dust * albedo * globalFlux lat J Wp th dust

/-- `Longitude_Offset` (solar_funcs.py:701-719), radians. -/
def lonOffset (lat α β : ℝ) : ℝ :=
  let term1 := sin β * sin α
  let term2 := cos β * cos (rad lat)
  let term3 := sin β * sin (rad lat) * cos α
  arctan (term1 / (term2 - term3))

/-- `Equivalent_Latitude` (solar_funcs.py:723-749) with `DEGREES=False`, radians. -/
def eqLat (lat α β : ℝ) : ℝ :=
  let term1 := sin β * cos α * cos (rad lat)
  let term2 := cos β * sin (rad lat)
  arcsin (term1 + term2)

/-- `Equivalent_Latitude` with `DEGREES=True` (solar_funcs.py:745-747). -/
def eqLatDeg (lat α β : ℝ) : ℝ := eqLat lat α β * (180 / π)

/-- `Noon_Offset_Slope` (solar_funcs.py:753-759). -/
def noonOffset (lat α β : ℝ) : ℝ := -1 * lonOffset lat α β / omega

/-- `Sunrise_Offset_Slope` (solar_funcs.py:763-784). -/
def sunriseSlope (lat J α β : ℝ) : ℝ :=
  let δ := declination (dayAngle J)
  max (sunrise (eqLatDeg lat α β) δ + noonOffset lat α β) (sunrise lat δ)

/-- `Sunset_Offset_Slope` (solar_funcs.py:788-809). -/
def sunsetSlope (lat J α β : ℝ) : ℝ :=
  let δ := declination (dayAngle J)
  min (sunset (eqLatDeg lat α β) δ + noonOffset lat α β) (sunset lat δ)

/-- `Day_Length_Slope` (solar_funcs.py:813-818). -/
def dayLengthSlope (lat J α β : ℝ) : ℝ := sunsetSlope lat J α β - sunriseSlope lat J α β

/-- `ET_Radiation_Flux_Slope` (solar_funcs.py:822-866), W/m². -/
def etFluxSlope (lat J th α β : ℝ) : ℝ :=
  let Γ := dayAngle J
  let δ := declination Γ
  let term1 := cos δ * cos (eqLat lat α β)
  let term2 := cos (omega * th + lonOffset lat α β)
  let term3 := sin (eqLat lat α β) * sin δ
  max (solarConstant * eccentricity Γ * (term1 * term2 + term3)) 0

open Classical in
/-- `Clear_Sky_Radiation` (solar_funcs.py:870-940), W/m². -/
def clearSky (lat J Wp th α β albedo dust : ℝ) : ℝ :=
  let tau := transmissivity lat J Wp th dust
  let K_cs := tau * etFluxSlope lat J th α β + diffuseFlux lat J Wp th dust
    + backscatterFlux lat J Wp albedo th dust
  if th ≤ sunriseSlope lat J α β ∨ sunsetSlope lat J α β ≤ th then 0 else K_cs

/-- `update_net_shortwave_radiation` (met_base.py:2048-2086): the value stored in `Qn_SW`. -/
def netShortwave (lat J Wp th α β albedo dust : ℝ) : ℝ :=
  clearSky lat J Wp th α β albedo dust * (1 - albedo)

/-! ## The day of the year -/

/-- `month_days` (solar_funcs.py:964-968). -/
def monthDays (year : Option ℕ) : List ℕ :=
  match year with
  | none => [0, 31, 28, 31, 30, 31, 30, 31, 31, 30, 31, 30, 31]
  | some y =>
    if y % 4 ≠ 0 then [0, 31, 28, 31, 30, 31, 30, 31, 31, 30, 31, 30, 31]
    else [0, 31, 29, 31, 30, 31, 30, 31, 31, 30, 31, 30, 31]

/-- `Julian_Day` (solar_funcs.py:944-995): the decimal day of the year, counted from 0. -/
def julianDay (month day : ℕ) (hour : Option ℚ) (year : Option ℕ) : ℚ :=
  let JD : ℚ := ((((monthDays year).take month).sum + (day - 1) : ℕ) : ℚ)
  match hour with
  | none => JD
  | some h => JD + h / 24

/-! ## True solar noon -/

/-- `Days_Per_Year()` (solar_funcs.py:999-1038). -/
def daysPerYear : ℝ := 365.2425

/-- `Earth_Tilt_Angle()` (solar_funcs.py:1063-1074), radians. -/
def tilt : ℝ := 23.4397 * (π / 180)

/-- `Earth_Orbit_Eccentricity` (solar_funcs.py:1078-1088). -/
def orbitEccentricity : ℝ := 0.016713

/-- `Vernal_Equinox` (solar_funcs.py:1092-1118). -/
def vernalEquinox (year : ℕ) : ℝ := 79.3125 + daysPerYear * ((year : ℝ) - 2000)

/-- `Tp_dict` (solar_funcs.py:1147-1163): day of January and hour of the perihelion, from 1981 to 2060. -/
def perihelionTable : List (ℕ × ℕ) :=
  [(2,2), (4,11), (2,15), (3,22), (3,20),
   (2,5), (4,23), (3,0), (1,22), (4,17),
   (3,3), (3,15), (4,3), (2,6), (4,11),
   (4,7), (2,0), (4,21), (3,13), (3,5),
   (4,9), (2,14), (4,5), (4,18), (2,1),
   (4,15), (3,20), (3,0), (4,15), (3,0),
   (3,19), (5,0), (2,5), (4,12), (4,7),
   (2,23), (4,14), (3,6), (3,5), (5,8),
   (2,14), (4,7), (4,16), (3,1), (4,13),
   (3,17), (3,3), (5,12), (2,18), (3,10),
   (4,21), (3,5), (4,12), (4,5), (3,1),
   (5,14), (3,4), (3,5), (5,7), (3,12),
   (3,22), (4,9), (2,22), (5,13), (3,15),
   (3,1), (5,12), (3,18), (3,10), (4,20),
   (3,6), (5,9), (3,22), (2,18), (5,12),
   (4,4), (3,3), (5,4), (3,11), (4,23)]

/-- `Earth_Perihelion` (solar_funcs.py:1122-1171).  `now` is `Current_Year()`; a current year outside the table is
the `KeyError` of `Tp_dict[ year ]`. -/
def perihelion (now year : ℕ) : Except String ℚ :=
  let y := if year < 1981 ∨ 2060 < year then now else year
  if y < 1981 then .error "KeyError"
  else
    match perihelionTable[y - 1981]? with
    | none => .error "KeyError"
    | some (d, h) => .ok (julianDay 1 d (some (h : ℚ)) none)

/-- `a % b` of Python for real numbers and `b > 0` (solar_funcs.py:1284). -/
def pyMod (a b : ℝ) : ℝ := a - b * ⌊a / b⌋

/-- The formula of `Equation_Of_Time` (solar_funcs.py:1254-1343, default `DEGREES=False, DMS=False`), hours, given the
day `Tp` of the perihelion. -/
def eotFormula (J : ℝ) (year : ℕ) (Tp : ℝ) : ℝ :=
  let twopi := 2 * π
  let M := pyMod ((twopi / daysPerYear) * (J - Tp) + twopi) twopi
  let PT := (365 + Tp) - vernalEquinox year
  let ω := twopi * (PT / daysPerYear)
  let L := M + ω
  let TE := (-2 * orbitEccentricity * sin M) + (sin (2 * L) * (tilt / 2) ^ (2 : ℕ))
  let spin := 2 * π / 24
  TE / spin

/-- `Equation_Of_Time` (solar_funcs.py:1214-1343). -/
def equationOfTime (now : ℕ) (J : ℝ) (year : ℕ) : Except String ℝ :=
  match perihelion now year with
  | .error e => .error e
  | .ok Tp => .ok (eotFormula J year (Tp : ℝ))

/-- `True_Solar_Noon` (solar_funcs.py:1347-1395) with `DST_offset=None`: local clock time in hours. -/
def trueSolarNoon (now : ℕ) (J lon : ℝ) (gmt : ℤ) (year : ℕ) : Except String ℝ :=
  match equationOfTime now J year with
  | .error e => .error e
  | .ok TE =>
    let center := (gmt : ℝ) * 15
    let LC := (center - lon) / 15
    .ok (12 + LC + TE)

/-- `split_datetime_str( datetime, ALL=True )` (time_utils.py:288-306) of a datetime object. -/
def splitDatetime (t : TimeUtils.DT) : Except String ((ℕ × ℕ × ℕ) × (ℕ × ℕ × ℕ)) :=
  match TimeUtils.splitOn ' ' (TimeUtils.strDT t) with
  | date :: time :: _ =>
    match TimeUtils.threeNumbers '-' date with
    | .error e => .error e
    | .ok ymd =>
      match TimeUtils.threeNumbers ':' time with
      | .error e => .error e
      | .ok hms => .ok (ymd, hms)
  | _ => .error "IndexError"

/-- The calendar part of `update_julian_day` (met_base.py:1946-1956): year and decimal day of the year, for the start
date and time of the run (the string made at met_base.py:1240-1243) and the time of the clock in minutes. -/
def currentDay (start : TimeUtils.Text) (timeMin : ℚ) : Except String (ℕ × ℚ) :=
  match TimeUtils.fromOneStr start with
  | .error e => .error e
  | .ok t0 =>
    match TimeUtils.fromTimeSince t0 timeMin "minutes" with
    | .error e => .error e
    | .ok t =>
      match splitDatetime t with
      | .error e => .error e
      | .ok ((y, m1, d), (h, _, _)) => .ok (y, julianDay m1 d (some (h : ℚ)) (some y))

/-- `update_julian_day` (met_base.py:1938-1991): year, day of the year and `TSN_offset`, the hours since true solar
noon.  `np.int16( julian_day )` is the integer part (days of a year fit). -/
def updateJulianDay (now : ℕ) (start : TimeUtils.Text) (lon : ℝ) (gmt : ℤ) (timeMin : ℚ) :
    Except String (ℕ × ℚ × ℝ) :=
  match currentDay start timeMin with
  | .error e => .error e
  | .ok (year, J) =>
    let clockHour : ℚ := (J - (⌊J⌋ : ℚ)) * 24
    match trueSolarNoon now (J : ℝ) lon gmt year with
    | .error e => .error e
    | .ok noon => .ok (year, J, (clockHour : ℝ) - noon)

/-! ## Grids -/

/-- What `Latitude_Grid` and `Longitude_Grid` use of the grid description (solar_funcs.py:1399-1483); resolutions in
arc seconds. -/
structure Info where
  geographic : Bool
  nrows : ℕ
  ncols : ℕ
  xres : ℝ
  yres : ℝ
  yS : ℝ
  xW : ℝ

/-- The latitude of a cell of row `i`, set by `initialize_computed_vars` (met_base.py:1140-1166) with `Latitude_Grid`
(solar_funcs.py:1399-1440): `flipud` of an ascending list; for projected coordinates that of Denver. -/
def latitude (g : Info) (i : ℕ) : ℝ :=
  if g.geographic then
    let dy := g.yres / 3600
    ((g.nrows - 1 - i : ℕ) : ℝ) * dy + g.yS + dy / 2
  else 39.7391667

/-- The longitude of a cell of column `j` (met_base.py:1140-1166, solar_funcs.py:1444-1483). -/
def longitude (g : Info) (j : ℕ) : ℝ :=
  if g.geographic then
    let dx := g.xres / 3600
    (j : ℝ) * dx + g.xW + dx / 2
  else -104.9841667

/-- One cell of `set_slope_angle` (met_base.py:988-1013) before the range check; NaN is `none`. -/
def slopeAngle (slope : Option ℝ) : ℝ :=
  match slope with
  | none => 0
  | some s => pyMod (2 * π + arctan s) (2 * π)

open Classical in
/-- `set_slope_angle` (met_base.py:988-1013): the new value of `self.beta`, or `none` if it returns without setting
it. -/
def setSlopeAngle (slopes : List (Option ℝ)) : Option (List ℝ) :=
  let beta := slopes.map slopeAngle
  if ∃ b ∈ beta, b < 0 ∨ π / 2 < b then none else some beta

/-- One cell of `set_aspect_angle` (met_base.py:1017-1037). -/
def aspectAngle (aspect : Option ℝ) : ℝ :=
  match aspect with
  | none => 0
  | some a => pyMod (2 * π + (π / 2 - a)) (2 * π)

end Solar
