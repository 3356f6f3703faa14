import Verif.InputModel

/-!
# Precipitation in the meteorology component

topoflow/components/met_base.py: reading precipitation and air temperature, the rain/snow split and the
volume totals.  `PRECIP_ONLY` may be on or off: the fluxes of the energy balance are modelled in
`MetEnergyModel` and do not change the variables here.
-/

set_option autoImplicit false
set_option linter.unusedSectionVars false

namespace Met

open D8 (Cell)
open Input

variable {ny nx : ℕ} {K : Type*} [Field K] [LinearOrder K] [IsStrictOrderedRing K]

/-- What the CFG file sets: types of precipitation and air temperature, unit conversion and calibration
factors for precipitation, the rain/snow threshold (met_base.py:864-877), the time step, cell areas. -/
structure Cfg (K : Type*) (ny nx : ℕ) where
  P_type : VarType
  T_air_type : VarType
  P_units : K
  P_factor : K
  T_rain_snow : K
  dt : K
  da : Cell ny nx → K

/-- The variables of the component.  Used in the model of met_base.py:2564-2620. -/
structure St (K : Type*) (ny nx : ℕ) where
  P : Val K ny nx
  T_air : Val K ny nx
  P_rain : Val K ny nx
  P_snow : Val K ny nx
  P_file : File K
  T_file : File K
  RAIN_OVER : Bool
  time_index : ℕ
  vol_P : K
  vol_PR : K
  vol_PS : K

/-- `set_rain_to_zero`, met_base.py:2564-2620.  `time_sec` is `time_index * dt`; with `dt > 0`,
`time_sec < dt` says `time_index = 0`, which is what is written here.  `P.fill(0)` keeps the kind. -/
def setRainToZero (cfg : Cfg K ny nx) (s : St K ny nx) : St K ny nx :=
  if s.RAIN_OVER then s
  else if cfg.P_type = .scalar ∧ s.time_index = 0 then s
  else { s with
    RAIN_OVER := true
    P := match s.P with | .sc _ => .sc 0 | .gr _ => .gr (fun _ => 0) }

/-- `read_input_files`, met_base.py:2382-2460: precipitation and air temperature. -/
def readInputFiles (cfg : Cfg K ny nx) (s : St K ny nx) : Except String (St K ny nx) :=
  match readNext cfg.P_type cfg.P_units s.P_file with
  | .error e => .error e
  | .ok (v, f) =>
    let s := { s with P_file := f }
    let afterP : Except String (St K ny nx) :=
      match v with
      | none => .ok (setRainToZero cfg s)
      | some _ =>
        match updateVar s.P v cfg.P_factor with
        | .error e => .error e
        | .ok P => .ok { s with P := P }
    match afterP with
    | .error e => .error e
    | .ok s =>
      match readVar cfg.T_air_type 1 1 (s.T_air, s.T_file) with
      | .error e => .error e
      | .ok (T, f) => .ok { s with
          T_air := T
          T_file := f }

/-- Writing a new value of `P_rain` or `P_snow`: `fill` if it is 0-dimensional and the air temperature
is of type 'scalar', else assignment to all entries, `x[:] = v`, which for a 0-dimensional array raises
IndexError (met_base.py:1326-1329 and 1379-1382). -/
def assign (cfg : Cfg K ny nx) (old new : Val K ny nx) : Except String (Val K ny nx) :=
  match old with
  | .sc _ =>
    if cfg.T_air_type = .scalar then
      match new with
      | .sc a => .ok (.sc a)
      | .gr _ => .error "ValueError"
    else .error "IndexError: too many indices for array"
  | .gr _ => .ok (.gr new.at)

/-- `P * (T_air > T_rain_snow)` in `update_P_rain`, met_base.py:1300-1355. -/
def rainOf (cfg : Cfg K ny nx) (P T : Val K ny nx) : Val K ny nx :=
  Val.map2 (fun p t => if t > cfg.T_rain_snow then p else 0) P T

/-- `P * (T_air <= T_rain_snow)` in `update_P_snow`, met_base.py:1357-1388. -/
def snowOf (cfg : Cfg K ny nx) (P T : Val K ny nx) : Val K ny nx :=
  Val.map2 (fun p t => if t ≤ cfg.T_rain_snow then p else 0) P T

/-- The three volume integrals, met_base.py:1247-1277, 1390-1417, 1419-1447: `volume * n_pixels` when
flux and cell area are scalars, else `np.sum(volume)`; both are the sum over the cells. -/
def addVolume (cfg : Cfg K ny nx) (vol : K) (flux : Val K ny nx) : K :=
  vol + ∑ c, flux.at c * cfg.da c * cfg.dt

/-- `update`, met_base.py:736-834, precipitation part, in the order of the code. -/
def update (cfg : Cfg K ny nx) (s : St K ny nx) : Except String (St K ny nx) :=
  let read : Except String (St K ny nx) :=
    if s.time_index > 0 then readInputFiles cfg s else .ok s
  match read with
  | .error e => .error e
  | .ok s =>
    let vol_P := addVolume cfg s.vol_P s.P
    match assign cfg s.P_rain (rainOf cfg s.P s.T_air) with
    | .error e => .error e
    | .ok P_rain =>
      match assign cfg s.P_snow (snowOf cfg s.P s.T_air) with
      | .error e => .error e
      | .ok P_snow => .ok { s with
          P_rain := P_rain
          P_snow := P_snow
          vol_P := vol_P
          vol_PR := addVolume cfg s.vol_PR P_rain
          vol_PS := addVolume cfg s.vol_PS P_snow
          time_index := s.time_index + 1 }

/-- `initialize`, met_base.py:625-733 with `initialize_input_file_vars`, 1041-1064, and
`initialize_computed_vars`, 1177-1182: `P0` and `T0` are the CFG values of scalar variables.  A scalar
`P` is converted to model units by `set_computed_input_vars`, met_base.py:930-934, which does not apply
the factor `P_factor`. -/
def initializeMet (cfg : Cfg K ny nx) (P0 T0 : K) (P_file T_file : File K) :
    Except String (St K ny nx) :=
  let zero : Val K ny nx := initVar cfg.P_type 0
  let first := readInputFiles cfg
    { P := initVar cfg.P_type P0
      T_air := initVar cfg.T_air_type T0
      P_rain := zero
      P_snow := zero
      P_file := P_file
      T_file := T_file
      RAIN_OVER := false
      time_index := 0
      vol_P := 0
      vol_PR := 0
      vol_PS := 0 }
  match first with
  | .error e => .error e
  | .ok s =>
    if cfg.P_type = .scalar then .ok { s with P := s.P.scale cfg.P_units } else .ok s

/-- `n` updates.  Built on the model of met_base.py:736-834. -/
def updates (cfg : Cfg K ny nx) : ℕ → St K ny nx → Except String (St K ny nx)
  | 0, s => .ok s
  | n + 1, s =>
    match updates cfg n s with
    | .error e => .error e
    | .ok s => update cfg s

/-- `initialize` and then `n` updates.  Built on the model of met_base.py:625-733. -/
def run (cfg : Cfg K ny nx) (P0 T0 : K) (P_file T_file : File K) (n : ℕ) :
    Except String (St K ny nx) :=
  match initializeMet cfg P0 T0 P_file T_file with
  | .error e => .error e
  | .ok s => updates cfg n s

end Met
