import Mathlib.Algebra.Order.Floor.Ring
import Mathlib.Algebra.Order.Field.Basic

/-!
# Model output: when values are saved and where they go

Models the output part of the components: `write_output_files`,
`save_grids`, `save_pixel_values`, `open_output_files`, `close_output_files` of
`topoflow/components/{channels,d8,snow,met,infil,satzone,evap,ice,glacier}_base.py`,
the functions of `topoflow/utils/model_output.py` they call, and the clock
`update_time` of `topoflow/utils/BMI_base.py`.

Simplifications: times are elements of an ordered field (no rounding); a file is
the list of (time, value) pairs written to it plus an open/closed flag; only the
netCDF file of each pair netCDF/RTS (netCDF/text) is modelled (the RTS file has
its own model in `RtsModel.lean`); the values of the model variables are supplied
from outside, one assignment per step.
-/

set_option autoImplicit false

namespace Output

variable {K : Type*} [Field K] [LinearOrder K] [IsStrictOrderedRing K] [FloorRing K]

/-! ## When values are saved -/

/-- Python's `int(x)` on a float: truncation towards zero.
Used in the model of channels_base.py:3864-3874. -/
def pyInt (x : K) : ℤ := if 0 ≤ x then ⌊x⌋ else ⌈x⌉

/-- `a % b` on Python integers, with `ZeroDivisionError`.
Used in the model of channels_base.py:3864-3874. -/
def pyMod (a b : ℤ) : Except String ℤ :=
  if b = 0 then .error "ZeroDivisionError" else .ok (a.fmod b)

/-- `self.save_grid_dt = np.maximum(self.save_grid_dt, self.dt)`
(channels_base.py:1033-1034, met_base.py:983-984, infil_base.py:518-519,
infil_green_ampt.py:305-306, infil_smith_parlange.py:307-308, infil_beven.py:300-301,
infil_richards_1D.py:523-524). -/
def clampSaveDt (saveDt dt : K) : K := max saveDt dt

/-- The save interval a component works with.  Only channels (channels_base.py:776),
infiltration (infil_base.py:284) and meteorology (met_base.py:722) call
`set_computed_input_vars`, which raises the interval to the time step.  The same lines in
snow_base.py:307-308, satzone_base.py:313-314, evap_base.py:258-259, ice_base.py:788-789
and glacier_base.py:322-323 are never reached: there the interval is used as given. -/
def intervalOf (clamps : Bool) (saveDt dt : K) : K :=
  if clamps then clampSaveDt saveDt dt else saveDt

/-- `(model_time % int(save_dt)) == 0` with `model_time = int(time_seconds)`
(channels_base.py:3864-3874). -/
def isDue (timeSec saveDt : K) : Except String Bool :=
  match pyMod (pyInt timeSec) (pyInt saveDt) with
  | .error e => .error e
  | .ok r => .ok (decide (r = 0))

/-- The clock of a component: `time`, `time_sec` (BMI_base.py:1029-1076). -/
structure Clock (K : Type*) where
  time : K
  timeSec : K

/-- The factor from the component's time units to seconds
(BMI_base.py:1051-1076); an unknown unit counts as seconds. -/
def secPerUnit (secPerYear : K) (units : String) : K :=
  if units = "seconds" then 1
  else if units = "minutes" then 60
  else if units = "hours" then 3600
  else if units = "days" then 3600 * 24
  else if units = "weeks" then 3600 * 24 * 7
  else if units = "months" then secPerYear / 12
  else if units = "years" then secPerYear
  else 1

/-- `update_time` (BMI_base.py:1029-1089), called without a `dt` argument. -/
def updateTime (dt factor : K) (c : Clock K) : Clock K :=
  { time := c.time + dt
    timeSec := (c.time + dt) * factor }

/-! ## Where values go -/

/-- A netCDF file: rows in the order written, and whether it is still open.
Used in the model of model_output.py:161. -/
structure File (K G : Type*) where
  rows : List (K × G)
  isOpen : Bool

/-- The file objects stored on the component as `self.<name>_ncgs_unit` and
`self.<name>_ncts_unit` (model_output.py:161, 376); `none` is a missing attribute. -/
structure Units (K G : Type*) where
  gs : String → Option (File K G)
  ts : String → Option (File K G)

variable {G : Type*}

/-- Setting one attribute.  Used in the model of model_output.py:182-189. -/
def setAt (m : String → Option (File K G)) (v : String) (f : File K G) :
    String → Option (File K G) :=
  fun w => if w = v then some f else m w

/-- `open_new_gs_file` and `open_new_ts_file` (model_output.py:182-189, 379-386):
a new empty file is stored under a name built from `var_name`. -/
def openNew (m : String → Option (File K G)) (v : String) : String → Option (File K G) :=
  setAt m v { rows := [], isOpen := true }

/-- `add_grid` (model_output.py:281-311): a missing or closed file raises inside
`try`, and the exception is dropped. -/
def addGrid (m : String → Option (File K G)) (t : K) (g : G) (v : String) :
    String → Option (File K G) :=
  match m v with
  | none => m
  | some f => if f.isOpen then setAt m v { f with rows := f.rows ++ [(t, g)] } else m

/-- `add_values_at_IDs` (model_output.py:425-428): no `try` around the netCDF part. -/
def addValues (m : String → Option (File K G)) (t : K) (g : G) (v : String) :
    Except String (String → Option (File K G)) :=
  match m v with
  | none => .error "AttributeError"
  | some f =>
    if f.isOpen then .ok (setAt m v { f with rows := f.rows ++ [(t, g)] })
    else .error "RuntimeError: NetCDF: Not a valid ID"

/-- `close_gs_file` (model_output.py:313-325): no `try` around the netCDF part. -/
def closeGs (m : String → Option (File K G)) (v : String) :
    Except String (String → Option (File K G)) :=
  match m v with
  | none => .error "AttributeError"
  | some f =>
    if f.isOpen then .ok (setAt m v { f with isOpen := false })
    else .error "RuntimeError: NetCDF: Not a valid ID"

/-- `close_ts_file` (model_output.py:478-488): every exception is dropped. -/
def closeTs (m : String → Option (File K G)) (v : String) : String → Option (File K G) :=
  match m v with
  | none => m
  | some f => if f.isOpen then setAt m v { f with isOpen := false } else m

/-- One line of `close_output_files`.  Used in the model of channels_base.py:3848-3882. -/
inductive CloseOp where
  | gs (flag var : String)
  | ts (flag var : String)
deriving DecidableEq

/-- The output statements of a component, in source order.  `openGs`/`openTs`:
(switch, `var_name`).  `saveGs`/`saveTs`: (switch, saved quantity, `var_name`).
`clamps`: whether `set_computed_input_vars` is called (see `intervalOf`).
Used in the model of channels_base.py:3848-3882. -/
structure Table where
  clamps : Bool
  openGs : List (String × String)
  openTs : List (String × String)
  saveGs : List (String × String × String)
  saveTs : List (String × String × String)
  close : List CloseOp

/-- `open_output_files` of a component with the given table.
Used in the model of channels_base.py:943-954. -/
def openFiles (tab : Table) (on : String → Bool) (u : Units K G) : Units K G :=
  { gs := tab.openGs.foldl (fun m r => if on r.1 then openNew m r.2 else m) u.gs
    ts := tab.openTs.foldl (fun m r => if on r.1 then openNew m r.2 else m) u.ts }

/-- `save_grids` of a component with the given table.
Used in the model of channels_base.py:3848-3882. -/
def saveGrids (tab : Table) (on : String → Bool) (t : K) (val : String → G)
    (m : String → Option (File K G)) : String → Option (File K G) :=
  tab.saveGs.foldl (fun m r => if on r.1 then addGrid m t (val r.2.1) r.2.2 else m) m

/-- `save_pixel_values` of a component with the given table.
Used in the model of channels_base.py:3848-3882. -/
def savePixels (tab : Table) (on : String → Bool) (t : K) (val : String → G)
    (m : String → Option (File K G)) : Except String (String → Option (File K G)) :=
  tab.saveTs.foldlM (fun m r => if on r.1 then addValues m t (val r.2.1) r.2.2 else .ok m) m

/-- One line of `close_output_files`.  Built on the model of model_output.py:478-488. -/
def closeOne (on : String → Bool) (u : Units K G) : CloseOp → Except String (Units K G)
  | .gs flag v =>
    if on flag then
      match closeGs u.gs v with
      | .error e => .error e
      | .ok m => .ok { u with gs := m }
    else .ok u
  | .ts flag v => if on flag then .ok { u with ts := closeTs u.ts v } else .ok u

/-- `close_output_files` of a component with the given table.
Built on the model of model_output.py:161. -/
def closeFiles (tab : Table) (on : String → Bool) (u : Units K G) : Except String (Units K G) :=
  tab.close.foldlM (closeOne on) u

/-! ## A run -/

/-- What the configuration says: the time step in the component's units, the
factor to seconds, the two save intervals in seconds (as given), switches.
Used in the model of channels_base.py:3848-3882. -/
structure Config (K : Type*) where
  dt : K
  factor : K
  saveGridDt : K
  savePixelsDt : K
  on : String → Bool

/-- `write_output_files` (channels_base.py:3848-3882, d8_base.py:1062-1088,
snow_base.py:859-874, met_base.py:2796-2814, infil_base.py:1332-1369,
satzone_base.py:1787-1813, evap_base.py:627-655, ice_base.py:973-999,
glacier_base.py:1122-1137), with `self.time_min = time_sec / 60` as the time
coordinate.  Profiles and cubes of the Richards component are not modelled. -/
def writeOutput (tab : Table) (cfg : Config K) (c : Clock K) (val : String → G)
    (u : Units K G) : Except String (Units K G) :=
  match isDue c.timeSec (intervalOf tab.clamps cfg.saveGridDt cfg.dt) with
  | .error e => .error e
  | .ok g =>
    let u1 : Units K G :=
      if g then { u with gs := saveGrids tab cfg.on (c.timeSec / 60) val u.gs } else u
    match isDue c.timeSec (intervalOf tab.clamps cfg.savePixelsDt cfg.dt) with
    | .error e => .error e
    | .ok p =>
      if p then
        match savePixels tab cfg.on (c.timeSec / 60) val u1.ts with
        | .error e => .error e
        | .ok ts => .ok { u1 with ts := ts }
      else .ok u1

/-- `n` calls of `update`: each writes output for the present time and then
advances the clock (channels_base.py:943-954, snow_base.py:266-275, ...).
`val k` are the values of the model variables in step `k`. -/
def updates (tab : Table) (cfg : Config K) (val : ℕ → String → G) :
    ℕ → Except String (Clock K × Units K G)
  | 0 => .ok ({ time := 0, timeSec := 0 },
      openFiles tab cfg.on { gs := fun _ => none, ts := fun _ => none })
  | n + 1 =>
    match updates tab cfg val n with
    | .error e => .error e
    | .ok (c, u) =>
      match writeOutput tab cfg c (val n) u with
      | .error e => .error e
      | .ok u' => .ok (updateTime cfg.dt cfg.factor c, u')

/-- `initialize`, `n` updates, `finalize`: the files left behind.
Built on the model of channels_base.py:943-954. -/
def run (tab : Table) (cfg : Config K) (val : ℕ → String → G) (n : ℕ) :
    Except String (Units K G) :=
  match updates tab cfg val n with
  | .error e => .error e
  | .ok (_, u) => closeFiles tab cfg.on u

/-! ## The tables -/

/-- channels_base.py:3781-3845 (open), 3918-3956 (save), 3896-3906 (close). -/
def channels : Table where
  clamps := true
  openGs := [("SAVE_Q_GRIDS", "Q"), ("SAVE_U_GRIDS", "u"), ("SAVE_D_GRIDS", "d"),
    ("SAVE_F_GRIDS", "f"), ("SAVE_DF_GRIDS", "d_flood")]
  openTs := [("SAVE_Q_PIXELS", "Q"), ("SAVE_U_PIXELS", "u"), ("SAVE_D_PIXELS", "d"),
    ("SAVE_F_PIXELS", "f"), ("SAVE_DF_PIXELS", "d_flood")]
  saveGs := [("SAVE_Q_GRIDS", "Q", "Q"), ("SAVE_U_GRIDS", "u", "u"), ("SAVE_D_GRIDS", "d", "d"),
    ("SAVE_F_GRIDS", "f", "f"), ("SAVE_DF_GRIDS", "d_flood", "d_flood")]
  saveTs := [("SAVE_Q_PIXELS", "Q", "Q"), ("SAVE_U_PIXELS", "u", "u"),
    ("SAVE_D_PIXELS", "d", "d"), ("SAVE_F_PIXELS", "f", "f"),
    ("SAVE_DF_PIXELS", "d_flood", "d_flood")]
  close := [.gs "SAVE_Q_GRIDS" "Q", .gs "SAVE_U_GRIDS" "u", .gs "SAVE_D_GRIDS" "d",
    .gs "SAVE_F_GRIDS" "f", .gs "SAVE_DF_GRIDS" "d_flood", .ts "SAVE_Q_PIXELS" "Q",
    .ts "SAVE_U_PIXELS" "u", .ts "SAVE_D_PIXELS" "d", .ts "SAVE_F_PIXELS" "f",
    .ts "SAVE_DF_PIXELS" "d_flood"]

/-- d8_base.py:993-1049 (open), 1121-1153 and 1172-1182 (save), 1094-1102 (close).
The time coordinate there is `self.time`. -/
def d8 : Table where
  clamps := false
  openGs := [("SAVE_CODE_GRIDS", "code"), ("SAVE_AREA_GRIDS", "area"), ("SAVE_DS_GRIDS", "ds"),
    ("SAVE_DW_GRIDS", "dw")]
  openTs := [("SAVE_CODE_PIXELS", "code"), ("SAVE_AREA_PIXELS", "area"),
    ("SAVE_DS_PIXELS", "ds"), ("SAVE_DW_PIXELS", "dw")]
  saveGs := [("SAVE_CODE_GRIDS", "d8_grid", "code"), ("SAVE_AREA_GRIDS", "A", "area"),
    ("SAVE_DW_GRIDS", "dw", "dw"), ("SAVE_DS_GRIDS", "ds", "ds")]
  saveTs := [("SAVE_CODE_PIXELS", "d8_grid", "code"), ("SAVE_AREA_PIXELS", "A", "area"),
    ("SAVE_DS_PIXELS", "ds", "ds"), ("SAVE_DW_PIXELS", "dw", "dw")]
  close := [.gs "SAVE_CODE_GRIDS" "code", .gs "SAVE_AREA_GRIDS" "area", .gs "SAVE_DS_GRIDS" "ds",
    .gs "SAVE_DW_GRIDS" "dw", .ts "SAVE_CODE_PIXELS" "code", .ts "SAVE_AREA_PIXELS" "area",
    .ts "SAVE_DS_PIXELS" "ds", .ts "SAVE_DW_PIXELS" "dw"]

/-- snow_base.py:796-856 (open), 901-930 (save), 888-896 (close). -/
def snow : Table where
  clamps := false
  openGs := [("SAVE_MR_GRIDS", "mr"), ("SAVE_HS_GRIDS", "hs"), ("SAVE_SW_GRIDS", "sw"),
    ("SAVE_CC_GRIDS", "cc")]
  openTs := [("SAVE_MR_PIXELS", "mr"), ("SAVE_HS_PIXELS", "hs"), ("SAVE_SW_PIXELS", "sw"),
    ("SAVE_CC_PIXELS", "cc")]
  saveGs := [("SAVE_MR_GRIDS", "SM", "mr"), ("SAVE_HS_GRIDS", "h_snow", "hs"),
    ("SAVE_SW_GRIDS", "h_swe", "sw"), ("SAVE_CC_GRIDS", "Ecc", "cc")]
  saveTs := [("SAVE_MR_PIXELS", "SM", "mr"), ("SAVE_HS_PIXELS", "h_snow", "hs"),
    ("SAVE_SW_PIXELS", "h_swe", "sw"), ("SAVE_CC_PIXELS", "Ecc", "cc")]
  close := [.gs "SAVE_MR_GRIDS" "mr", .gs "SAVE_HS_GRIDS" "hs", .gs "SAVE_SW_GRIDS" "sw",
    .gs "SAVE_CC_GRIDS" "cc", .ts "SAVE_MR_PIXELS" "mr", .ts "SAVE_HS_PIXELS" "hs",
    .ts "SAVE_SW_PIXELS" "sw", .ts "SAVE_CC_PIXELS" "cc"]

/-- met_base.py:2704-2794 (open), 2841-2888 (save), 2820-2834 (close), for runs with
`PRECIP_ONLY` off (otherwise nothing is written, met_base.py:823-824). -/
def met : Table where
  clamps := true
  openGs := [("SAVE_EA_GRIDS", "ea"), ("SAVE_ES_GRIDS", "es"), ("SAVE_QSW_GRIDS", "Qsw"),
    ("SAVE_QLW_GRIDS", "Qlw"), ("SAVE_EMA_GRIDS", "ema"), ("SAVE_TSURF_GRIDS", "tsurf"),
    ("SAVE_ALB_GRIDS", "alb")]
  openTs := [("SAVE_EA_PIXELS", "ea"), ("SAVE_ES_PIXELS", "es"), ("SAVE_QSW_PIXELS", "Qsw"),
    ("SAVE_QLW_PIXELS", "Qlw"), ("SAVE_EMA_PIXELS", "ema"), ("SAVE_TSURF_PIXELS", "tsurf"),
    ("SAVE_ALB_PIXELS", "alb")]
  saveGs := [("SAVE_EA_GRIDS", "e_air", "ea"), ("SAVE_ES_GRIDS", "e_surf", "es"),
    ("SAVE_QSW_GRIDS", "Qn_SW", "Qsw"), ("SAVE_QLW_GRIDS", "Qn_LW", "Qlw"),
    ("SAVE_EMA_GRIDS", "em_air", "ema"), ("SAVE_TSURF_GRIDS", "T_surf", "tsurf"),
    ("SAVE_ALB_GRIDS", "albedo", "alb")]
  saveTs := [("SAVE_EA_PIXELS", "e_air", "ea"), ("SAVE_ES_PIXELS", "e_surf", "es"),
    ("SAVE_QSW_PIXELS", "Qn_SW", "Qsw"), ("SAVE_QLW_PIXELS", "Qn_LW", "Qlw"),
    ("SAVE_EMA_PIXELS", "em_air", "ema"), ("SAVE_TSURF_PIXELS", "T_surf", "tsurf"),
    ("SAVE_ALB_PIXELS", "albedo", "alb")]
  close := [.gs "SAVE_EA_GRIDS" "ea", .gs "SAVE_ES_GRIDS" "es", .gs "SAVE_QSW_GRIDS" "Qsw",
    .gs "SAVE_QLW_GRIDS" "Qlw", .gs "SAVE_EMA_GRIDS" "ema", .gs "SAVE_TSURF_GRIDS" "tsurf",
    .gs "SAVE_ALB_GRIDS" "alb", .ts "SAVE_EA_PIXELS" "ea", .ts "SAVE_ES_PIXELS" "es",
    .ts "SAVE_QSW_PIXELS" "Qsw", .ts "SAVE_QLW_PIXELS" "Qlw", .ts "SAVE_EMA_PIXELS" "ema",
    .ts "SAVE_TSURF_PIXELS" "tsurf", .ts "SAVE_ALB_PIXELS" "alb"]

/-- infil_base.py:1166-1223 (open), 1420-1450 (save), 1384-1392 (close), for the
components other than Richards.  Simplified: their `q0` and `Zw` switches, `False`
unless the configuration file sets them, are taken to be off (see OutNameModel). -/
def infil : Table where
  clamps := true
  openGs := [("SAVE_V0_GRIDS", "v0"), ("SAVE_I_GRIDS", "I")]
  openTs := [("SAVE_V0_PIXELS", "v0"), ("SAVE_I_PIXELS", "I")]
  saveGs := [("SAVE_V0_GRIDS", "IN", "IN"), ("SAVE_I_GRIDS", "I", "I")]
  saveTs := [("SAVE_V0_PIXELS", "IN", "IN"), ("SAVE_I_PIXELS", "I", "I")]
  close := [.gs "SAVE_V0_GRIDS" "v0", .gs "SAVE_I_GRIDS" "I", .ts "SAVE_V0_PIXELS" "v0",
    .ts "SAVE_I_PIXELS" "I"]

/-- satzone_base.py:1733-1784 (open), 1845-1878 (save), 1827-1835 (close). -/
def satzone : Table where
  clamps := false
  openGs := [("SAVE_GW_GRIDS", "GW"), ("SAVE_HT_GRIDS", "h_table"),
    ("SAVE_DF_GRIDS", "d_freeze"), ("SAVE_DT_GRIDS", "d_thaw")]
  openTs := [("SAVE_GW_PIXELS", "GW"), ("SAVE_HT_PIXELS", "h_table"),
    ("SAVE_DF_PIXELS", "d_freeze"), ("SAVE_DT_PIXELS", "d_thaw")]
  saveGs := [("SAVE_GW_GRIDS", "GW", "GW"), ("SAVE_HT_GRIDS", "h_table", "h_table"),
    ("SAVE_DF_GRIDS", "d_freeze", "d_flood"), ("SAVE_DT_GRIDS", "d_thaw", "d_thaw")]
  saveTs := [("SAVE_GW_PIXELS", "GW", "GW"), ("SAVE_HT_PIXELS", "h_table", "h_table"),
    ("SAVE_DF_PIXELS", "d_freeze", "d_flood"), ("SAVE_DT_PIXELS", "d_thaw", "d_thaw")]
  close := [.gs "SAVE_GW_GRIDS" "GW", .gs "SAVE_HT_GRIDS" "h_table",
    .gs "SAVE_DF_GRIDS" "d_freeze", .gs "SAVE_DT_GRIDS" "d_thaw", .ts "SAVE_GW_PIXELS" "GW",
    .ts "SAVE_HT_PIXELS" "h_table", .ts "SAVE_DF_PIXELS" "d_freeze",
    .ts "SAVE_DT_PIXELS" "d_thaw"]

/-- evap_base.py:608-623 (open), 683-696 (save), 669-671 (close). The saved
quantity is `self.ET * self.mps_to_mmph`. -/
def evap : Table where
  clamps := false
  openGs := [("SAVE_ET_GRIDS", "ET")]
  openTs := [("SAVE_ET_PIXELS", "ET")]
  saveGs := [("SAVE_ET_GRIDS", "ET_mmph", "ET")]
  saveTs := [("SAVE_ET_PIXELS", "ET_mmph", "ET")]
  close := [.gs "SAVE_ET_GRIDS" "ET", .gs "SAVE_ET_PIXELS" "ET"]

/-- ice_base.py:927-970 (open), 1029-1057 (save), 1013-1019 (close).  The time
coordinate of the time series there is `self.time`. -/
def ice : Table where
  clamps := false
  openGs := [("SAVE_HI_GRIDS", "hi"), ("SAVE_ZI_GRIDS", "zi"), ("SAVE_MR_GRIDS", "imr")]
  openTs := [("SAVE_HI_PIXELS", "hi"), ("SAVE_ZI_PIXELS", "zi"), ("SAVE_MR_PIXELS", "imr")]
  saveGs := [("SAVE_HI_GRIDS", "h_ice", "hi"), ("SAVE_ZI_GRIDS", "z_ice", "zi"),
    ("SAVE_MR_GRIDS", "MR_mmph", "imr")]
  saveTs := [("SAVE_HI_PIXELS", "h_ice", "hi"), ("SAVE_ZI_PIXELS", "z_ice", "zi"),
    ("SAVE_MR_PIXELS", "MR_mmph", "imr")]
  close := [.gs "SAVE_HI_GRIDS" "hi", .gs "SAVE_ZI_GRIDS" "zi", .gs "SAVE_MR_GRIDS" "imr",
    .ts "SAVE_HI_PIXELS" "hi", .ts "SAVE_ZI_PIXELS" "zi", .ts "SAVE_MR_PIXELS" "imr"]

/-- glacier_base.py:1002-1118 (open), 1172-1231 (save), 1151-1167 (close). -/
def glacier : Table where
  clamps := false
  openGs := [("SAVE_SMR_GRIDS", "smr"), ("SAVE_HS_GRIDS", "hs"), ("SAVE_SW_GRIDS", "sw"),
    ("SAVE_CC_GRIDS", "cc"), ("SAVE_IMR_GRIDS", "imr"), ("SAVE_HI_GRIDS", "hi"),
    ("SAVE_IW_GRIDS", "iw"), ("SAVE_CCI_GRIDS", "cci"), ("SAVE_TMR_GRIDS", "tmr")]
  openTs := [("SAVE_SMR_PIXELS", "smr"), ("SAVE_HS_PIXELS", "hs"), ("SAVE_SW_PIXELS", "sw"),
    ("SAVE_CC_PIXELS", "cc"), ("SAVE_IMR_PIXELS", "imr"), ("SAVE_HI_PIXELS", "hi"),
    ("SAVE_IW_PIXELS", "iw"), ("SAVE_CCI_PIXELS", "cci"), ("SAVE_TMR_PIXELS", "tmr")]
  saveGs := [("SAVE_SMR_GRIDS", "SM", "smr"), ("SAVE_HS_GRIDS", "h_snow", "hs"),
    ("SAVE_SW_GRIDS", "h_swe", "sw"), ("SAVE_CC_GRIDS", "Eccs", "cc"),
    ("SAVE_IMR_GRIDS", "IM", "imr"), ("SAVE_HI_GRIDS", "h_ice", "hi"),
    ("SAVE_IW_GRIDS", "h_iwe", "iw"), ("SAVE_CCI_GRIDS", "Ecci", "cci"),
    ("SAVE_TMR_GRIDS", "M_total", "tmr")]
  saveTs := [("SAVE_SMR_PIXELS", "SM", "smr"), ("SAVE_HS_PIXELS", "h_snow", "hs"),
    ("SAVE_SW_PIXELS", "h_swe", "sw"), ("SAVE_CC_PIXELS", "Eccs", "cc"),
    ("SAVE_IMR_PIXELS", "IM", "imr"), ("SAVE_HI_PIXELS", "h_ice", "hi"),
    ("SAVE_IW_PIXELS", "h_iwe", "iw"), ("SAVE_CCI_PIXELS", "Ecci", "cci"),
    ("SAVE_TMR_PIXELS", "M_total", "tmr")]
  close := [.gs "SAVE_SMR_GRIDS" "smr", .gs "SAVE_HS_GRIDS" "hs", .gs "SAVE_SW_GRIDS" "sw",
    .gs "SAVE_CC_GRIDS" "cc", .gs "SAVE_IMR_GRIDS" "imr", .gs "SAVE_HI_GRIDS" "hi",
    .gs "SAVE_CCI_GRIDS" "cci", .gs "SAVE_TMR_GRIDS" "tmr", .ts "SAVE_SMR_PIXELS" "smr",
    .ts "SAVE_HS_PIXELS" "hs", .ts "SAVE_SW_PIXELS" "sw", .ts "SAVE_CC_PIXELS" "cc",
    .ts "SAVE_IMR_PIXELS" "imr", .ts "SAVE_HI_PIXELS" "hi", .ts "SAVE_CCI_PIXELS" "cci",
    .ts "SAVE_TMR_PIXELS" "tmr"]

end Output
