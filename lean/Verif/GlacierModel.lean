import Verif.SnowModel

/-!
# The glacier component around its update: configuration, totals and published values

topoflow/components/glacier_base.py: `initialize_computed_vars`, the cold contents, `update_density_ratio`, the totals
and what other components read.  The update itself is `Snow.gStep`.

Simplifications: the energy balance method, whose variables are always grids (glacier_base.py:405); exact numbers.
-/

set_option autoImplicit false

namespace Snow

variable {K C : Type} [Field K] [LinearOrder K] [Fintype C]

/-- What `initialize_computed_vars` starts from: initial depths (glacier_base.py:396-399), density and heat capacity,
temperatures, depth of the active layer. -/
structure GConfig (K C : Type) where
  h0_snow : C → K
  h0_swe : C → K
  h0_ice : C → K
  h0_iwe : C → K
  rho_H2O : K
  rho_snow : C → K
  rho_ice : C → K
  Cp_snow : K
  Cp_ice : K
  T0 : C → K
  T_surf : C → K
  h_active : C → K
  rho_snow_type : String

/-- The component: the variables of the update and the totals (glacier_base.py:443-455). -/
structure GComp (K C : Type) where
  st : GSt K C
  vol_swe : K
  vol_swe_start : K
  vol_iwe : K
  vol_iwe_start : K
  vol_M_total : K

/-- `update_total_snowpack_water_volume` and `update_total_ice_water_volume` (glacier_base.py:866-917) for grids. -/
def totalVolume (da h : C → K) : K := ∑ c, h c * da c

/-- `initialize_snow_cold_content`, `initialize_ice_cold_content` (glacier_base.py:478-559). -/
def gInitCold (rho : C → K) (Cp : K) (h T0 T_surf : C → K) (c : C) : K :=
  max ((rho c * Cp) * h c * (T0 c - T_surf c)) 0

/-- `initialize_computed_vars` (glacier_base.py:370-475). -/
def gInit (cfg : GConfig K C) (da : C → K) : GComp K C where
  st :=
    { SM := fun _ => 0
      IM := fun _ => 0
      M_total := fun _ => 0
      h_swe := cfg.h0_swe
      h_iwe := cfg.h0_iwe
      h_snow := cfg.h0_snow
      h_ice := cfg.h0_ice
      Eccs := gInitCold cfg.rho_snow cfg.Cp_snow cfg.h0_snow cfg.T0 cfg.T_surf
      Ecci := gInitCold cfg.rho_ice cfg.Cp_ice cfg.h_active cfg.T0 cfg.T_surf
      vol_SM := 0
      vol_IM := 0 }
  vol_swe := totalVolume da cfg.h0_swe
  vol_swe_start := totalVolume da cfg.h0_swe
  vol_iwe := totalVolume da cfg.h0_iwe
  vol_iwe_start := totalVolume da cfg.h0_iwe
  vol_M_total := 0

/-- The parameters of the update: density ratios set once (glacier_base.py:461-468). -/
def gParams (cfg : GConfig K C) (da : C → K) (dt rhoLf : K) : GParams K C where
  dt := dt
  da := da
  rhoLf := rhoLf
  wsRatio := fun c => cfg.rho_H2O / cfg.rho_snow c
  wiRatio := fun c => cfg.rho_H2O / cfg.rho_ice c
  heatCap := fun c => cfg.rho_snow c * cfg.Cp_snow

/-- `update` (glacier_base.py:209-294): `update_density_ratio` (743-760) refers to the attribute `density_ratio`, which
is never set, unless the density of snow is a scalar or a grid.  The totals of storage and `vol_M_total` are not
touched: the calls of `update_swe_integral` and `update_iwe_integral` are comments. -/
def gUpdate (cfg : GConfig K C) (da : C → K) (dt rhoLf : K) (i : GInp K C) (g : GComp K C) :
    Except String (GComp K C) :=
  if cfg.rho_snow_type.toLower = "scalar" ∨ cfg.rho_snow_type.toLower = "grid" then
    .ok { g with st := gStep (gParams cfg da dt rhoLf) i g.st }
  else .error "AttributeError: density_ratio"

/-- A run of the component.  Built on the model of glacier_base.py:209-294. -/
def gUpdates (cfg : GConfig K C) (da : C → K) (dt rhoLf : K) : List (GInp K C) → GComp K C → Except String (GComp K C)
  | [], g => .ok g
  | i :: is, g =>
    match gUpdate cfg da dt rhoLf i g with
    | .ok g' => gUpdates cfg da dt rhoLf is g'
    | .error e => .error e

/-- The change of snow storage in the report of the driver (topoflow_driver.py:1247-1248, 1254, 1259, 1289). -/
def reportedSnowChange (g : GComp K C) : K := g.vol_swe - g.vol_swe_start

end Snow
