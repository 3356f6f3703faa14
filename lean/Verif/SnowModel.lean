import Mathlib.Algebra.Order.Field.Basic
import Mathlib.Algebra.BigOperators.Group.Finset.Basic
import Mathlib.Data.Fintype.Basic

/-!
# Snow and glacier components

topoflow/components/snow_base.py, snow_degree_day.py, snow_energy_balance.py, glacier_base.py,
glacier_energy_balance.py.  All updates are elementwise, so a variable is a function on the cells
`C`; a numpy scalar is a constant function, and the `volume * n_pixels` of the code is then the sum
over the cells.  Values are in an ordered field: rounding and NaN are not modelled.
-/

set_option autoImplicit false

namespace Snow

variable {K : Type*} [Field K] [LinearOrder K] {C : Type*} [Fintype C]

/-- Latent heat of fusion times the density of water, snow_energy_balance.py:412-424. -/
def rhoL : K := 334000000

/-- The two snowmelt methods and their parameters.
Used in the model of snow_degree_day.py:293-358. -/
inductive Method (K C : Type*)
  | degreeDay (c0 T0 : C → K)
  | energyBalance

/-- Parameters of a run.  Used in the model of snow_degree_day.py:293-358. -/
structure Params (K C : Type*) where
  method : Method K C
  dt : K
  da : C → K

/-- Inputs of one update; `ratio` is `rho_H2O / rho_snow`, constant in time unless the snow density
is a time series or a grid sequence (`update_density_ratio`, snow_base.py:611-628).  With a time
series the code goes on using the first ratio: see `SnowShapeModel.lean`, which also has the failures
of mixtures of numbers and grids. -/
structure Inp (K C : Type*) where
  P_snow : C → K
  T_air : C → K
  Q_sum : C → K
  ratio : C → K

/-- State of the snow component.  Used in the model of snow_degree_day.py:293-358. -/
structure St (K C : Type*) where
  SM : C → K
  h_swe : C → K
  h_snow : C → K
  Ecc : C → K
  vol_SM : K

/-- `update_meltrate`: snow_degree_day.py:293-358 and snow_energy_balance.py:329-456. -/
def potentialMelt (p : Params K C) (i : Inp K C) (s : St K C) (c : C) : K :=
  match p.method with
  | .degreeDay c0 T0 => (c0 c / 86400000) * (i.T_air c - T0 c)
  | .energyBalance =>
    let E_in := i.Q_sum c * p.dt
    let E_rem := max (E_in - s.Ecc c) 0
    let Qm := E_rem / p.dt
    Qm / rhoL

/-- `enforce_max_meltrate`, snow_base.py:490-512. -/
def enforceMax (p : Params K C) (SM h_swe : C → K) (c : C) : K :=
  max (min (SM c) (h_swe c / p.dt)) 0

/-- `update_cold_content`: snow_base.py:548-557 (no change) and snow_energy_balance.py:458-478. -/
def coldContent (p : Params K C) (i : Inp K C) (s : St K C) (c : C) : K :=
  match p.method with
  | .degreeDay _ _ => s.Ecc c
  | .energyBalance =>
    let E_in := i.Q_sum c * p.dt
    max (s.Ecc c - E_in) 0

/-- `update_swe`, snow_base.py:559-609. -/
def newSwe (p : Params K C) (i : Inp K C) (SM h_swe : C → K) (c : C) : K :=
  max (h_swe c + i.P_snow c * p.dt - SM c * p.dt) 0

/-- `update`, snow_base.py:214-277, in the order of the code: melt rate, cap, integral, cold content,
snow water equivalent, depth. -/
def step (p : Params K C) (i : Inp K C) (s : St K C) : St K C :=
  let SM := enforceMax p (potentialMelt p i s) s.h_swe
  let swe := newSwe p i SM s.h_swe
  { SM := SM
    vol_SM := s.vol_SM + ∑ c, SM c * p.da c * p.dt
    Ecc := coldContent p i s
    h_swe := swe
    h_snow := fun c => swe c * i.ratio c }

/-- `update_total_snowpack_water_volume`, snow_base.py:705-729. -/
def snowVolume (p : Params K C) (s : St K C) : K := ∑ c, s.h_swe c * p.da c

/-- `initialize_cold_content`, snow_base.py:431-469. -/
def initCold (rho Cp h0 T0 Tsurf : C → K) (c : C) : K :=
  max (rho c * Cp c * h0 c * (T0 c - Tsurf c)) 0

/-- `initialize_computed_vars`, snow_base.py:348-429. -/
def initSt (rho Cp h0_snow h0_swe T0 Tsurf : C → K) : St K C :=
  { SM := fun _ => 0, h_swe := h0_swe, h_snow := h0_snow,
    Ecc := initCold rho Cp h0_snow T0 Tsurf, vol_SM := 0 }

/-- The states after each update of a history, in order.
Built on the model of snow_base.py:214-277. -/
def states (p : Params K C) : St K C → List (Inp K C) → List (St K C)
  | _, [] => []
  | s, i :: is => step p i s :: states p (step p i s) is

/-- The state at the end.  Built on the model of snow_base.py:214-277. -/
def run (p : Params K C) : St K C → List (Inp K C) → St K C
  | s, [] => s
  | s, i :: is => run p (step p i s) is

/-! ### Glacier (energy balance) -/

/-- Parameters: density of water times latent heat (`rho_H2O * Lf`), the two density ratios (fixed by
`initialize_computed_vars`, glacier_base.py:461-468), heat capacity of fresh snow
(`rho_snow * Cp_snow`). -/
structure GParams (K C : Type*) where
  dt : K
  da : C → K
  rhoLf : K
  wsRatio : C → K
  wiRatio : C → K
  heatCap : C → K

/-- Inputs.  `dT` is `T0_cc - T_wb`, the wet bulb depression of fresh snow
(glacier_energy_balance.py:489-498); its formula is not modelled, it may be any number. -/
structure GInp (K C : Type*) where
  P_snow : C → K
  Q_sum : C → K
  dT : C → K

/-- State of the glacier component.  Used in the model of glacier_base.py:209-294. -/
structure GSt (K C : Type*) where
  SM : C → K
  IM : C → K
  M_total : C → K
  h_swe : C → K
  h_iwe : C → K
  h_snow : C → K
  h_ice : C → K
  Eccs : C → K
  Ecci : C → K
  vol_SM : K
  vol_IM : K

/-- Melt rate from the energy in excess of a cold content: `update_snow_meltrate`,
glacier_energy_balance.py:354-467 and the first half of `update_ice_meltrate`, 550-661. -/
def gMelt (p : GParams K C) (i : GInp K C) (ecc : C → K) (c : C) : K :=
  (max (i.Q_sum c * p.dt - ecc c) 0 / p.dt) / p.rhoLf

/-- `update_snowfall_cold_content`, glacier_energy_balance.py:470-514. -/
def snowfallCold (p : GParams K C) (i : GInp K C) (eccs : C → K) (c : C) : K :=
  if 0 < i.P_snow c then
    max (eccs c + p.heatCap c * (i.P_snow c * p.dt * p.wsRatio c) * i.dT c - i.Q_sum c * p.dt) 0
  else eccs c

/-- `update_snowpack_cold_content`, glacier_energy_balance.py:517-546. -/
def snowpackCold [DecidableEq K] (p : GParams K C) (i : GInp K C) (eccs h_snow : C → K) (c : C) : K :=
  if h_snow c = 0 then 0
  else if i.P_snow c ≤ 0 then max (eccs c - i.Q_sum c * p.dt) 0
  else eccs c

/-- `update`, glacier_base.py:209-294, in the order of the code. -/
def gStep (p : GParams K C) (i : GInp K C) (s : GSt K C) : GSt K C :=
  let SM : C → K := fun c => max (min (gMelt p i s.Eccs c) (s.h_swe c / p.dt)) 0
  let swe : C → K := fun c => max (s.h_swe c + i.P_snow c * p.dt - SM c * p.dt) 0
  let eccs1 := snowfallCold p i s.Eccs
  -- update_ice_meltrate, glacier_energy_balance.py:650-684
  let IM0 : C → K := fun c =>
    if swe c = 0 ∧ s.h_swe c = 0 then max (gMelt p i s.Ecci c) 0 else 0
  let ecci : C → K := fun c => if s.h_ice c = 0 then 0 else max (s.Ecci c - i.Q_sum c * p.dt) 0
  -- enforce_max_ice_meltrate, glacier_base.py:619-635
  let IM : C → K := fun c => max (min (IM0 c) (s.h_iwe c / p.dt)) 0
  let iwe : C → K := fun c => max (s.h_iwe c - IM c * p.dt) 0
  let h_snow : C → K := fun c => swe c * p.wsRatio c
  { SM := SM
    IM := IM
    M_total := fun c => IM c + SM c
    h_swe := swe
    h_iwe := iwe
    h_snow := h_snow
    h_ice := fun c => iwe c * p.wiRatio c
    Eccs := snowpackCold p i eccs1 h_snow
    Ecci := ecci
    vol_SM := s.vol_SM + ∑ c, SM c * p.da c * p.dt
    vol_IM := s.vol_IM + ∑ c, IM c * p.da c * p.dt }

/-- The state at the end of a history.  Built on the model of glacier_base.py:209-294. -/
def gRun (p : GParams K C) : GSt K C → List (GInp K C) → GSt K C
  | s, [] => s
  | s, i :: is => gRun p (gStep p i s) is

end Snow
