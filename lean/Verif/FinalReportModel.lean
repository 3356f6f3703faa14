import Verif.DriverModel
import Verif.TableModel

/-!
# The lines of the final report

`print_final_report` and its parts (topoflow/components/topoflow_driver.py:1036-1391): which numbers are printed
with which labels and units.  The delivery of the values from the other components is modelled in ReportModel,
their meaning in the models of the components.  Numbers are exact.  Left out: lines without numbers (directories,
prefixes, version, date, rules), the outlet cell, the remarks in parentheses at the end of a line, the word gain
or loss in front of the volume error (DriverModel), the ratio of error and inflow, and the printing itself.
-/

set_option autoImplicit false

namespace FinalReport

/-- What the driver knows at the end of a run.  Used in the model of topoflow_driver.py:1046-1356. -/
structure Final where
  method : String
  Tstop : ℚ
  timeMin : ℚ
  elapsed : ℚ
  nSteps : ℤ
  nx : ℤ
  ny : ℤ
  basinArea : ℚ
  nval : Option (ℚ × ℚ)
  z0val : Option (ℚ × ℚ)
  Qoutlet : ℚ
  Qpeak : ℚ
  Tpeak : ℚ
  upeak : ℚ
  Tupeak : ℚ
  dpeak : ℚ
  Tdpeak : ℚ
  Qmin : ℚ
  Qmax : ℚ
  umin : ℚ
  umax : ℚ
  dmin : ℚ
  dmax : ℚ
  volP : ℚ
  volPR : ℚ
  volPS : ℚ
  volSM : ℚ
  volMR : ℚ
  volET : ℚ
  volIN : ℚ
  volRg : ℚ
  volGW : ℚ
  volR : ℚ
  volQ : ℚ
  volEdge : ℚ
  chan0 : ℚ
  chan : ℚ
  flood : ℚ
  soil0 : ℚ
  soil : ℚ
  swe0 : ℚ
  swe : ℚ

/-- How a number is printed: `'{x:.kf}'.format(x)` or `str(x)`.  Used in the model of
topoflow_driver.py:1036-1044, 1118-1127. -/
inductive Shown
  | fix (k : ℕ) (x : ℚ)
  | full (x : ℚ)

/-- The label, the numbers and the unit of a line.  Used in the model of topoflow_driver.py:1128-1138. -/
structure Line where
  label : String
  shown : List Shown
  unit : String

/-- A number and a unit as in `vol_str`, topoflow_driver.py:1036-1042. -/
def volStr (value : ℚ) : Shown × String :=
  if |value| < 1000000 then (.full value, "[m^3]") else (.full (value / 1000000), "x 10^6 [m^3]")

/-- A line with a volume.  Used in the model of topoflow_driver.py:1187-1222. -/
def volLine (label : String) (value : ℚ) : Line := ⟨label, [(volStr value).1], (volStr value).2⟩

/-- `add_basic_info_to_report`, topoflow_driver.py:1046-1111; `nval`, `z0val` are absent if they are not
provided or -1. -/
def basicInfo (r : Final) : List Line :=
  let T := if r.method = "Until_model_time" then r.Tstop else r.timeMin
  let run : Shown × String := if r.elapsed > 60 then (.fix 4 (r.elapsed / 60), "[min]") else (.fix 4 r.elapsed, "[sec]")
  [⟨"Simulated time:", [.full T], "[min]"⟩, ⟨"Program run time:", [run.1], run.2⟩,
    ⟨"Number of timesteps:", [.full r.nSteps], ""⟩, ⟨"Number of columns:", [.full r.nx], ""⟩,
    ⟨"Number of rows:", [.full r.ny], ""⟩, ⟨"Basin area:", [.full r.basinArea], "[km^2]"⟩] ++
  (match r.nval with
    | none => []
    | some (a, b) => [⟨"Min Manning's n:", [.fix 7 a], ""⟩, ⟨"Max Manning's n:", [.fix 7 b], ""⟩]) ++
  (match r.z0val with
    | none => []
    | some (a, b) => [⟨"Min z0 value:", [.fix 7 a], "[m]"⟩, ⟨"Max z0 value:", [.fix 7 b], "[m]"⟩])

/-- `add_peak_info_to_report`, topoflow_driver.py:1115-1138. -/
def peakInfo (r : Final) : List Line :=
  [⟨"Q_outlet (final):", [.fix 7 r.Qoutlet], "[m^3/s]"⟩, ⟨"Q_peak:", [.fix 7 r.Qpeak], "[m^3/s]"⟩,
    ⟨"Q_peak_time:", [.fix 7 r.Tpeak], "[min]"⟩, ⟨"u_peak:", [.fix 7 r.upeak], "[m^3/s]"⟩,
    ⟨"u_peak_time:", [.fix 7 r.Tupeak], "[min]"⟩, ⟨"d_peak:", [.fix 7 r.dpeak], "[m^3/s]"⟩,
    ⟨"d_peak_time:", [.fix 7 r.Tdpeak], "[min]"⟩]

/-- `add_mins_and_maxes_to_report`, topoflow_driver.py:1142-1159. -/
def minsMaxes (r : Final) : List Line :=
  [⟨"Min(Q), Max(Q):", [.fix 7 r.Qmin, .fix 7 r.Qmax], "[m^3/s]"⟩,
    ⟨"Min(u), Max(u):", [.fix 7 r.umin, .fix 7 r.umax], "[m/s]"⟩,
    ⟨"Min(d), Max(d):", [.fix 7 r.dmin, .fix 7 r.dmax], "[m]"⟩]

/-- `add_flux_volumes_to_report`, topoflow_driver.py:1163-1224. -/
def fluxVolumes (r : Final) : List Line :=
  let Ri := r.volPR + r.volSM + r.volMR + r.volGW
  let Ro := r.volIN + r.volET
  [volLine "vol_P    (precip):" r.volP, volLine "vol_PR   (rainfall):" r.volPR,
    volLine "vol_edge (boundary):" r.volEdge, volLine "vol_ET   (evaporation):" r.volET,
    volLine "vol_Rg   (recharge):" r.volRg, volLine "vol_SM   (snowmelt):" r.volSM,
    volLine "vol_IM   (icemelt):" r.volMR, volLine "vol_GW   (baseflow):" r.volGW,
    volLine "vol_R    (surface flow):" r.volR, volLine "vol_PS   (snowfall):" r.volPS,
    volLine "vol_IN   (infiltration):" r.volIN, volLine "vol_R_i  (runoff gain):" Ri,
    volLine "vol_R_o  (runoff loss):" Ro, volLine "vol_Q    (discharge):" r.volQ]

/-- The volumes as DriverModel has them.  Used in the model of topoflow_driver.py:1228-1356. -/
def vols (r : Final) : Driver.Vols ℚ where
  P := r.volP
  ET := r.volET
  edge := r.volEdge
  chan0 := r.chan0
  chan := r.chan
  flood := r.flood
  soil0 := r.soil0
  soil := r.soil
  swe0 := r.swe0
  swe := r.swe

/-- `add_storage_volumes_to_report`, topoflow_driver.py:1228-1293. -/
def storageVolumes (r : Final) : List Line :=
  let start := r.chan0 + r.soil0 + r.swe0 + 0
  let final := r.chan + r.soil + r.swe + r.flood
  [volLine "vol_soil_start  (subsurface):" r.soil0, volLine "vol_chan_start  (channels):" r.chan0,
    volLine "vol_flood_start (surface):" 0, volLine "vol_swe_start   (snowpack):" r.swe0,
    volLine "vol_start       (total):" start, volLine "vol_soil_final  (subsurface):" r.soil,
    volLine "vol_chan_final  (channels):" r.chan, volLine "vol_flood_final (surface):" r.flood,
    volLine "vol_swe_final   (snowpack):" r.swe, volLine "vol_final       (total):" final,
    volLine "vol_change      (total):" (Driver.storedChange (vols r))]

/-- `add_mass_balance_to_report`, topoflow_driver.py:1297-1353. -/
def massBalance (r : Final) : List Line :=
  [volLine "volume in         =" r.volP, volLine "volume out        =" (r.volET + r.volEdge),
    volLine "change in storage =" (Driver.storedChange (vols r)), volLine "volume error      =" (Driver.volError (vols r))]

/-- `print_final_report`, topoflow_driver.py:1357-1373. -/
def report (r : Final) : List Line :=
  basicInfo r ++ peakInfo r ++ minsMaxes r ++ fluxVolumes r ++ storageVolumes r ++ massBalance r

end FinalReport
