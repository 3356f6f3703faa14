import Verif.DisableModel

/-!
# Starting the components of a model one after the other

`DisableModel` says what `initialize` leaves behind.  Here is what it must find: the attributes that
`initialize` of an enabled component reads although neither its class nor the CFG files shipped for
the component set them.  They must have been put there before, by the connections of the components
that were initialised earlier, or by further entries of the CFG file.

The tables were made by reading every function that `initialize` can reach, with a script that lists
the attributes read and not assigned before, in the order of the calls.  A value that is found under a name is taken to be usable.
The erosion, flow direction, data and smoothing components are not examined.
-/

set_option autoImplicit false
set_option maxRecDepth 100000

namespace Start

open Repo Disable

/-- An attribute: one that carries a variable of the tables of `RepoModel`, or another one.
Used in the model of BMI_base.py:2364-2376. -/
inductive Name where
  | var (a : Attr)
  | own (s : String)
  deriving DecidableEq

/-- What the CFG files say.  `off c`: `comp_status = Disabled`; `scalarP`: the precipitation is one
number; `extra c`: entries beyond those of the shipped CFG files (every entry becomes an attribute,
BMI_base.py:1700-1760); `fromFile c`: the parameters that are read from a file - for the
diversions component, those of `sources`, `sinks` and `canals` that are in use and whose file is
found (diversions_fraction_method.py:283-290, 345-352, 419-426). -/
structure Setup where
  off : Comp → Bool
  scalarP : Bool
  extra : Comp → List Name
  fromFile : Comp → List String

/-- The attributes that `initialize` of an enabled component reads and that are not its own:
evap_base.py:272-275, 292-299; evap_energy_balance.py:272-280; evap_priestley_taylor.py:282-291;
glacier_energy_balance.py:297-304; glacier_base.py:378-403, 461-468, 506, 547;
infil_green_ampt.py:313-315; infil_beven.py:313-315; infil_smith_parlange.py:320-322, 466-483;
infil_richards_1D.py:538-540, 1058-1060; infil_base.py:847-848, 857-888; snow_degree_day.py:276-278;
snow_energy_balance.py:279-285; snow_base.py:432, 459; topoflow_driver.py:913;
diversions_fraction_method.py:325-326, 400-401, 493-499.  A name that is read and set in the same
statement counts as read: the names of output files in satzone_base.py:1696-1705, 1733, 1761 and in
evap_base.py:583-585, 608, 619, where the shipped CFG files have other names. -/
def reads (fromFile : List String) : Comp → List Name
  | .tf_evap_energy_balance =>
      [.own "alpha_type", .own "ET_gs_file", .own "ET_ts_file", .own "SAVE_ET_GRIDS",
       .own "SAVE_ET_PIXELS"] ++ [Attr.Q_sum, .Qe, .T_air, .h_snow].map .var
  | .tf_evap_priestley_taylor => [Attr.Qn_SW, .Qn_LW, .T_air, .T_surf].map .var
  | .tf_evap_read_file => [Attr.T_air, .T_surf].map .var
  | .tf_glacier_energy_balance =>
      [Attr.P_snow, .rho_H2O, .rho_air, .Cp_air, .T_air, .RH, .T_surf, .Q_sum].map .var
  | .tf_infil_green_ampt | .tf_infil_beven =>
      [.own "dz", .own "q"] ++ [Attr.P_rain, .SM, .h_table].map .var
  | .tf_infil_smith_parlange =>
      [.own "dz", .own "q"] ++ fromFile.map (fun x => .own (x ++ "_list")) ++
      [Attr.P_rain, .SM, .h_table].map .var
  | .tf_infil_richards_1d => [Attr.P_rain, .SM, .ET].map .var
  | .tf_satzone_darcy_layers | .tf_satzone_attenuate =>
      ["GW_gs_file", "h_table_gs_file", "d_freeze_gs_file", "d_thaw_gs_file", "GW_ts_file",
       "h_table_ts_file", "d_freeze_ts_file", "d_thaw_ts_file", "SAVE_GW_GRIDS",
       "SAVE_GW_PIXELS"].map .own
  | .tf_snow_degree_day => [Attr.P_snow, .rho_H2O, .T_air, .T_surf].map .var
  | .tf_snow_energy_balance =>
      [Attr.P_snow, .rho_H2O, .rho_air, .Cp_air, .T_air, .T_surf, .Q_sum].map .var
  | .tf_diversions_fraction_method =>
      if fromFile = [] then [] else [.own "dx", .own "dy"]
  | .topoflow_driver => [.var .Q_outlet]
  | _ => []

/-- `initialize`: raises AttributeError at the first attribute that is not there.  A switched off
component returns before it reads any (see `Disable.offAttrs`).  Evaporation that is read from files
calls `read_next` with a keyword that this function does not have (evap_read_file.py:256-257,
model_input.py:132-134; evap_base.py:165-166), which raises TypeError whatever the files hold.
Used in the model of emeli.py:1459-1471. -/
def initOne (su : Setup) (c : Comp) (got : List Name) : Except String Unit :=
  if su.off c then .ok ()
  else if c = .tf_evap_read_file then .error "TypeError"
  else if (reads (su.fromFile c) c).all (fun a => (su.extra c ++ got).elem a) then .ok ()
  else .error "AttributeError"

/-- The attributes that `connect_comps` sets in the user `u` when the provider `p` is connected
(emeli.py:1480-1495, BMI_base.py:636-652). -/
def given (p u : Comp) : List Name :=
  ((decl p).outputs.filter (fun v => decide (v ∈ (decl u).inputs))).filterMap
    (fun v => (getVarName u v).toOption.map .var)

/-- The loop of `initialize_comp_set`, emeli.py:1459-1497: initialise the next provider, then
connect each of its output variables to all its users.  `got`: what the components of the model have
received so far. -/
def initLoop (su : Setup) (l : List Comp) :
    List Comp → (Comp → List Name) → Except String (List Connected)
  | [], _ => .ok []
  | p :: rest, got => do
    initOne su p (got p)
    let r ← ((decl p).outputs.flatMap (fun v => (usersOf l v).map (fun u => (u, v)))).mapM
      (fun x => connectLive su.scalarP su.off p x.1 x.2)
    let r' ← initLoop su l rest (fun u => got u ++ given p u)
    .ok (r ++ r')

/-- `initialize_comp_set`, emeli.py:1425-1497, for the providers in the order of the provider file. -/
def initSet (su : Setup) (l : List Comp) : Except String (List Connected) :=
  initLoop su l l (fun _ => [])

end Start
